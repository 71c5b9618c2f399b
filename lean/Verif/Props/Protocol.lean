import Verif.Lemmas.Protocol
import Verif.Props.Serial

/-!
# C23–C30: the serial message processor
-/

namespace Ur20

open Com Spec

/-- C23: the initialisation handshake. After any history with `cycles ops` earlier calls of `next`
(and any reads and writes), for every input and output: call 1 sets both flush flags and clears
reset, call 2 sets reset and clears both flush flags, both without data and without touching the
queue, the segment counter or the hardware buffer flag; all later calls pass the four flags
through. -/
theorem C23_handshake (len : ProcessDataLength) (ops : List Op) (i : RsIn) (o : RsOut) :
    let p := runOps (MessageProcessor.new len) ops
    let r := (p.next i o).2
    (cycles ops = 0 →
      r.reset = false ∧ r.rxBufFlush = true ∧ r.txBufFlush = true ∧ r.data = [] ∧
      r.txCnt = o.txCnt ∧ r.disableTxHwBuffer = o.disableTxHwBuffer ∧
      (p.next i o).1.outData = p.outData ∧ (p.next i o).1.inData = p.inData) ∧
    (cycles ops = 1 →
      r.reset = true ∧ r.rxBufFlush = false ∧ r.txBufFlush = false ∧ r.data = [] ∧
      r.txCnt = o.txCnt ∧ r.disableTxHwBuffer = o.disableTxHwBuffer ∧
      (p.next i o).1.outData = p.outData ∧ (p.next i o).1.inData = p.inData) ∧
    (2 ≤ cycles ops →
      r.reset = o.reset ∧ r.rxBufFlush = o.rxBufFlush ∧ r.txBufFlush = o.txBufFlush ∧
      r.disableTxHwBuffer = o.disableTxHwBuffer) := by
  intro p r
  have hs : p.initState = initStateOf (cycles ops) := runOps_new len ops
  refine ⟨?_, ?_, ?_⟩
  · intro h
    rw [h] at hs
    show (p.next i o).2.reset = _ ∧ _
    rw [show r = (p.next i o).2 from rfl, next_clear _ _ _ hs]
    simp
  · intro h
    rw [h] at hs
    rw [show r = (p.next i o).2 from rfl, next_reset _ _ _ hs]
    simp
  · intro h
    have hd : p.initState = .done := by
      rw [hs]
      match cycles ops, h with
      | n + 2, _ => rfl
    rw [show r = (p.next i o).2 from rfl, next_done _ _ _ hd]
    obtain ⟨f1, f2, f3, f4⟩ := nextTx_flags p i o
    exact ⟨f4, f1, f2, f3⟩

/-- An input and an output frame for the examples. -/
def exIn : RsIn := ⟨true, false, 1, 0, true, [1#8, 2#8]⟩
/-- See `exIn`. -/
def exOut : RsOut := ⟨false, false, true, 0, 0, false, [9#8]⟩

example :
    let p0 := MessageProcessor.new .EightBytes
    let (p1, r1) := p0.next exIn exOut
    let (_, r2) := p1.next exIn r1
    r1 = ⟨true, true, true, 0, 1, false, []⟩ ∧ r2 = ⟨false, false, true, 0, 1, true, []⟩ := by
  decide

example : cycles [.write [1#8], .next exIn exOut, .read 3, .next exIn exOut] = 2 := by decide

/-- C24: stop-and-wait. After initialisation, the frame in the output image is left alone as long
as its number is the successor of the last acknowledged one; otherwise the oldest queued segment
is emitted with that successor number; without a queued segment nothing changes. -/
theorem C24_stop_and_wait (len : ProcessDataLength) (ops : List Op) (hc : 2 ≤ cycles ops)
    (i : RsIn) (o : RsOut) (hi : i.txCntAck < 4) :
    let p := runOps (MessageProcessor.new len) ops
    let r := (p.next i o).2
    let p' := (p.next i o).1
    (o.txCnt = (i.txCntAck + 1) % 4 →
      r.txCnt = o.txCnt ∧ r.data = o.data ∧ p'.outData = p.outData) ∧
    (p.outData = [] → r.txCnt = o.txCnt ∧ r.data = o.data ∧ p'.outData = []) ∧
    (∀ c cs, o.txCnt ≠ (i.txCntAck + 1) % 4 → p.outData = c :: cs →
      r.txCnt = (i.txCntAck + 1) % 4 ∧ r.data = c ∧ p'.outData = cs) := by
  intro p r p'
  have hd : p.initState = .done := by
    rw [show p.initState = initStateOf (cycles ops) from runOps_new len ops]
    match cycles ops, hc with
    | n + 2, _ => rfl
  have hr : r = { (p.nextTx i o).2 with rxCntAck := i.rxCnt } := by
    rw [show r = (p.next i o).2 from rfl, next_done _ _ _ hd]
  have hp : p'.outData = (p.nextTx i o).1.outData := by
    rw [show p' = (p.next i o).1 from rfl, next_done _ _ _ hd, (nextRx_frame _ _).1]
  rw [hr, hp]
  refine ⟨?_, ?_, ?_⟩
  · intro h
    rw [nextTx_busy p i o (by rw [incCnt_eq _ hi, h])]
    simp
  · intro h
    rw [nextTx_nil p i o h]
    simp [h]
  · intro c cs h hq
    rw [nextTx_send p i o c cs hq (by rw [incCnt_eq _ hi]; exact fun e => h e.symm)]
    simp [incCnt_eq _ hi]

example :
    let p := runOps (MessageProcessor.new .EightBytes)
      [.next exIn exOut, .next exIn exOut, .write [1#8, 2#8, 3#8, 4#8, 5#8, 6#8, 7#8]]
    p.outData = [[1#8, 2#8, 3#8, 4#8, 5#8, 6#8], [7#8]] ∧
    (p.next exIn exOut).2.txCnt = 1 ∧
    (p.next exIn exOut).2.data = [1#8, 2#8, 3#8, 4#8, 5#8, 6#8] ∧
    (p.next exIn { exOut with txCnt := 1 }).2.data = [9#8] := by decide

/-- C25: in every state reachable by any schedule of writes, reads, cycles and device steps, the
bytes taken over by the device, followed by those in flight and those queued, are the bytes
written. -/
theorem C25_exactly_once (len : ProcessDataLength) (s : Sys) (h : s.Initial len)
    (evs : List Ev) :
    let t := s.run evs
    t.received ++ t.inFlight ++ t.queued = t.written :=
  ((Sys.TxInv.initial h).run evs).bytes

/-- C25: what the device has taken over is always a prefix of what was written. -/
theorem C25_prefix (len : ProcessDataLength) (s : Sys) (h : s.Initial len) (evs : List Ev) :
    (s.run evs).received <+: (s.run evs).written := by
  rw [← C25_exactly_once len s h evs, List.append_assoc]
  exact List.prefix_append _ _

/-- `written` is the concatenation of the buffers written in the schedule (so the record kept in
`Sys` is what it claims to be). -/
theorem C25_written (s : Sys) (evs : List Ev) :
    (s.run evs).written =
      s.written ++ (evs.map fun | .write b => b | _ => []).flatten := by
  induction evs generalizing s with
  | nil => simp [Sys.run]
  | cons e evs ih =>
    rw [show s.run (e :: evs) = (s.step e).run evs from rfl, ih]
    have hw : (s.step e).written = s.written ++ (match e with | .write b => b | _ => []) := by
      cases e <;> simp only [Sys.step, List.append_nil] <;> (repeat' split) <;> rfl
    rw [hw]
    simp

/-- A concrete initial state. -/
def exSys : Sys :=
  { p := MessageProcessor.new .EightBytes, cycles := 0,
    out := ⟨false, false, false, 0, 0, false, []⟩, pending := none, ack := 0, rxCnt := 0,
    avail := false, rxData := [], written := [], received := [], seen := [], delivered := [],
    fresh := true }

example : exSys.Initial .EightBytes :=
  ⟨rfl, rfl, rfl, rfl, by decide, by decide, by decide⟩

/-- A schedule in which the device takes a segment in the middle of a cycle. -/
example :
    let t := exSys.run [.write [1#8, 2#8, 3#8, 4#8, 5#8, 6#8, 7#8, 8#8], .start false true, .finish,
      .start false true, .finish, .start false true, .finish, .start false true, .take, .finish,
      .start false true, .finish]
    t.received = [1#8, 2#8, 3#8, 4#8, 5#8, 6#8] ∧ t.inFlight = [7#8, 8#8] ∧ t.queued = [] := by
  decide

/-- Segments that are not yet taken over: the one in the image, if any, and the queued ones. -/
def outstanding (s : Sys) : List (List Byte) :=
  (if s.out.txCnt = (s.ack + 1) % 4 then [s.out.data] else []) ++ s.p.outData

/-- `k` rounds of a complete cycle followed by a look of the device at the image. -/
def rounds : Nat → Sys → Sys
  | 0, s => s
  | k + 1, s => rounds k s.round

theorem cycle_facts (s : Sys) (hp : s.pending = none) :
    ∃ t : Sys, s.run [.start false true, .finish] = t ∧
      t.p = (s.p.next (s.input false true) s.out).1 ∧
      t.out = (s.p.next (s.input false true) s.out).2 ∧ t.pending = none ∧ t.ack = s.ack ∧
      t.received = s.received ∧ t.cycles = s.cycles + 1 ∧ t.written = s.written := by
  by_cases hc : 2 < s.cycles + 1 ∧ s.avail = true ∧ s.fresh = true
  · have h : s.step (.start false true) = { s with
        p := (s.p.next (s.input false true) s.out).1,
        pending := some (s.p.next (s.input false true) s.out).2, cycles := s.cycles + 1,
        seen := s.seen ++ s.rxData, fresh := false } := by
      simp [Sys.step, hp, hc]
    refine ⟨_, rfl, ?_⟩
    simp only [Sys.run, List.foldl_cons, List.foldl_nil, h]
    simp [Sys.step]
  · have h : s.step (.start false true) = { s with
        p := (s.p.next (s.input false true) s.out).1,
        pending := some (s.p.next (s.input false true) s.out).2, cycles := s.cycles + 1 } := by
      simp [Sys.step, hp, hc]
    refine ⟨_, rfl, ?_⟩
    simp only [Sys.run, List.foldl_cons, List.foldl_nil, h]
    simp [Sys.step]

private theorem round_done (s : Sys) (hd : s.p.initState = .done) (hp : s.pending = none)
    (ha : s.ack < 4) :
    s.round.p.initState = .done ∧ s.round.pending = none ∧ s.round.ack < 4 ∧
    s.round.received = s.received ++ ((outstanding s).take 1).flatten ∧
    outstanding s.round = (outstanding s).drop 1 := by
  obtain ⟨t, ht, h1, h2, h3, h4, h5, -, -⟩ := cycle_facts s hp
  have hround : s.round = t.step .take := by rw [← ht]; rfl
  have hns : (s.p.next (s.input false true) s.out).1.initState = .done := by
    rw [next_done _ _ _ hd, (nextRx_frame _ _).2.1, (nextTx_frame _ _ _).2.2.1, hd]
  have hq : (s.p.next (s.input false true) s.out).1.outData =
      (s.p.nextTx (s.input false true) s.out).1.outData := by
    rw [next_done _ _ _ hd, (nextRx_frame _ _).1]
  have ho : (s.p.next (s.input false true) s.out).2 =
      { (s.p.nextTx (s.input false true) s.out).2 with rxCntAck := s.rxCnt } := by
    rw [next_done _ _ _ hd]; rfl
  have hinc := incCnt_eq _ ha
  have hm : (s.ack + 1) % 4 < 4 := Nat.mod_lt _ (by omega)
  rw [hround]
  by_cases hbusy : s.out.txCnt = (s.ack + 1) % 4
  · rw [nextTx_busy _ _ _ (by simp [Sys.input, hinc, hbusy])] at hq ho
    have hg : t.out.txCnt = (t.ack + 1) % 4 := by rw [h2, ho, h4]; exact hbusy
    simp only [Sys.step, if_pos hg, h1, h3, h5, outstanding]
    refine ⟨hns, trivial, by omega, ?_, ?_⟩
    · rw [h2, ho, if_pos hbusy]; simp
    · rw [if_neg (by omega), if_pos hbusy, hq]; simp
  · cases hqs : s.p.outData with
    | nil =>
      rw [nextTx_nil _ _ _ hqs] at hq ho
      have hg : t.out.txCnt ≠ (t.ack + 1) % 4 := by rw [h2, ho, h4]; exact hbusy
      simp only [Sys.step, if_neg hg, outstanding]
      rw [h1, h3, h4, h5]
      refine ⟨hns, rfl, ha, ?_, ?_⟩
      · simp [hbusy, hqs]
      · rw [hq, hqs, if_neg hbusy]; simp
    | cons c cs =>
      rw [nextTx_send _ _ _ c cs hqs (by simp [Sys.input, hinc]; exact fun e => hbusy e.symm)]
        at hq ho
      have hg : t.out.txCnt = (t.ack + 1) % 4 := by
        rw [h2, ho, h4]; simp [Sys.input, hinc]
      simp only [Sys.step, if_pos hg, h1, h3, h5, outstanding]
      refine ⟨hns, trivial, by omega, ?_, ?_⟩
      · rw [h2, ho, if_neg hbusy, hqs]; simp
      · rw [if_neg (by omega), if_neg hbusy, hq, hqs]; simp

/-- C26: with an initialised processor and no cycle in progress, `k` rounds deliver exactly the
next `k` outstanding segments (or all of them, if there are fewer), in order. -/
theorem C26_rounds (k : Nat) (s : Sys) (hd : s.p.initState = .done) (hp : s.pending = none)
    (ha : s.ack < 4) :
    (rounds k s).received = s.received ++ ((outstanding s).take k).flatten ∧
    outstanding (rounds k s) = (outstanding s).drop k := by
  induction k generalizing s with
  | zero => simp [rounds]
  | succ k ih =>
    obtain ⟨h1, h2, h3, h4, h5⟩ := round_done s hd hp ha
    obtain ⟨i1, i2⟩ := ih s.round h1 h2 h3
    rw [rounds, i1, i2, h4, h5]
    refine ⟨?_, by rw [List.drop_drop]; congr 1; omega⟩
    rw [List.append_assoc, ← List.flatten_append]
    congr 2
    rw [Nat.add_comm k 1, List.take_add]

private theorem round_run (s : Sys) : s.round = s.run [.start false true, .finish, .take] := rfl

private theorem round_facts (s : Sys) (h : s.TxInv) (hp : s.pending = none) :
    s.round.TxInv ∧ s.round.pending = none ∧ s.round.cycles = s.cycles + 1 ∧
    s.round.p.outData.length ≤ s.p.outData.length ∧ s.round.written = s.written := by
  refine ⟨h.run _, ?_⟩
  rw [round_run]
  simp only [Sys.run, List.foldl_cons, List.foldl_nil]
  have hlen : (s.p.next (s.input false true) s.out).1.outData.length ≤ s.p.outData.length := by
    cases hs : s.p.initState with
    | clearBuffers => rw [next_clear _ _ _ hs]; exact Nat.le_refl _
    | reset => rw [next_reset _ _ _ hs]; exact Nat.le_refl _
    | done =>
      rw [next_done _ _ _ hs, (nextRx_frame _ _).1]
      unfold MessageProcessor.nextTx
      split
      · exact Nat.le_refl _
      · rename_i c cs hq
        split
        · simp [hq]
        · exact Nat.le_refl _
  obtain ⟨t, ht, h1, h2, h3, h4, h5, h6, h7⟩ := cycle_facts s hp
  simp only [Sys.run, List.foldl_cons, List.foldl_nil] at ht
  rw [ht]
  simp only [Sys.step]
  rw [← h1] at hlen
  split <;> exact ⟨h3, h6, hlen, h7⟩

/-- C26: whatever has happened before, if cycles and looks of the device keep alternating then
everything written is delivered: two rounds for the initialisation, one for a segment already in
the image and one per queued segment are enough. -/
theorem C26_everything_delivered (len : ProcessDataLength) (s : Sys) (h : s.Initial len)
    (evs : List Ev) (hp : (s.run evs).pending = none) (k : Nat)
    (hk : 3 + (s.run evs).p.outData.length ≤ k) :
    (rounds k (s.run evs)).received = (s.run evs).written ∧
    (rounds k (s.run evs)).p.outData = [] := by
  generalize ht : s.run evs = t at hp hk
  have hi : t.TxInv := by rw [← ht]; exact (Sys.TxInv.initial h).run evs
  obtain ⟨a1, a2, a3, a4, a5⟩ := round_facts t hi hp
  obtain ⟨b1, b2, b3, b4, b5⟩ := round_facts t.round a1 a2
  obtain ⟨j, rfl⟩ : ∃ j, k = j + 2 := ⟨k - 2, by omega⟩
  have hr : rounds (j + 2) t = rounds j t.round.round := rfl
  have hd : t.round.round.p.initState = .done := by
    rw [b1.init, b3, a3]; rfl
  obtain ⟨c1, c2⟩ := C26_rounds j _ hd b2 b1.ack
  have hout : (outstanding t.round.round).length ≤ 1 + t.p.outData.length := by
    unfold outstanding
    rw [List.length_append]
    have : (if t.round.round.out.txCnt = (t.round.round.ack + 1) % 4 then
        [t.round.round.out.data] else []).length ≤ 1 := by split <;> simp
    omega
  rw [List.drop_eq_nil_of_le (by omega)] at c2
  rw [List.take_of_length_le (by omega)] at c1
  rw [hr, c1]
  refine ⟨?_, ?_⟩
  · have hb := b1.bytes
    simp only [Sys.inFlight, b2, Sys.queued, List.append_nil] at hb
    rw [← a5, ← b5, ← hb]
    unfold outstanding
    rw [List.flatten_append, List.append_assoc]
    congr 2
    split <;> simp
  · unfold outstanding at c2
    exact (List.append_eq_nil_iff.1 c2).2

example : (rounds 5 (exSys.run [.write [1#8, 2#8, 3#8, 4#8, 5#8, 6#8, 7#8, 8#8]])).received
    = [1#8, 2#8, 3#8, 4#8, 5#8, 6#8, 7#8, 8#8] := by decide

/-- C27: in every history every queued segment has between 1 and 6 (14) bytes. -/
theorem C27_segments (len : ProcessDataLength) (ops : List Op) :
    ∀ c ∈ (runOps (MessageProcessor.new len) ops).outData,
      1 ≤ c.length ∧ c.length ≤ capacity len := by
  have hc : capacity len = len.userDataLen := by cases len <;> rfl
  rw [hc]
  exact ((QueueOk.new len).runOps ops).2

/-- C27: a write always accepts the whole buffer and appends exactly its bytes to the queue. -/
theorem C27_write (p : MessageProcessor) (buf : List Byte) :
    (p.write buf).2 = buf.length ∧
    (p.write buf).1.outData.flatten = p.outData.flatten ++ buf ∧
    p.outData <+: (p.write buf).1.outData :=
  ⟨rfl, write_outData_flatten p buf, List.prefix_append _ _⟩

/-- C27: for every history and all images decoded from frames of the configured size, the result
of `next` can be encoded. -/
theorem C27_encodable (len : ProcessDataLength) (ops : List Op) (inBytes outBytes : List Byte)
    (i : RsIn) (o : RsOut) (hi : rsInFromBytes inBytes = .ok i)
    (ho : rsOutFromBytes outBytes = .ok o) (hlen : outBytes.length ≤ capacity len + 2) :
    ∃ bytes, rsOutToBytes ((runOps (MessageProcessor.new len) ops).next i o).2 len
      = .ok bytes := by
  obtain ⟨i1, i2, -⟩ := (C21_counters inBytes).1 i hi
  obtain ⟨o1, o2, o3⟩ := (C21_counters outBytes).2 o ho
  have hq := (QueueOk.new len).runOps ops
  have hc : capacity len = len.userDataLen := by cases len <;> rfl
  rw [(C20_errors _ _).2.2]
  refine ⟨?_, by rw [Sys.next_rxCntAck]; omega, ?_⟩ <;>
  · generalize runOps (MessageProcessor.new len) ops = p at hq
    cases hs : p.initState with
    | clearBuffers => rw [next_clear _ _ _ hs]; simp; try omega
    | reset => rw [next_reset _ _ _ hs]; simp; try omega
    | done =>
      rw [next_done _ _ _ hs]
      unfold MessageProcessor.nextTx
      split
      · simp only; omega
      · rename_i c cs hcs
        split
        · have := incCnt_lt i.txCntAck
          have := (hq.2 c (by rw [hcs]; simp)).2
          simp only; omega
        · simp only; omega

example : ∃ i o, rsInFromBytes [0x09#8, 1#8, 5#8, 0#8, 0#8, 0#8, 0#8, 0#8] = .ok i ∧
    rsOutFromBytes [0x20#8, 0#8, 0#8, 0#8, 0#8, 0#8, 0#8, 0#8] = .ok o :=
  ⟨_, _, rfl, rfl⟩

/-- C28: in every state reachable by any schedule, the bytes delivered by reads followed by the
bytes still buffered are exactly the segments presented to the initialised processor, each once
and in order, however long each of them stays in the image. -/
theorem C28_exactly_once (len : ProcessDataLength) (s : Sys) (h : s.Initial len)
    (evs : List Ev) :
    (s.run evs).delivered ++ (s.run evs).p.inData = (s.run evs).seen :=
  ((Sys.RxInv.initial h).run evs).bytes

/-- Two segments, each in the image for several cycles, the second posted in the middle of a
cycle. -/
example :
    let t := exSys.run [.start false true, .finish, .start false true, .finish, .post [1#8, 2#8],
      .start false true, .finish, .start false true, .post [3#8], .finish, .start false true,
      .finish, .start false true, .finish, .read 2]
    t.seen = [1#8, 2#8, 3#8] ∧ t.delivered = [1#8, 2#8] ∧ t.p.inData = [3#8] := by decide

/-- C29: every call acknowledges exactly the segment number it was given. -/
theorem C29_acknowledge (p : MessageProcessor) (i : RsIn) (o : RsOut) :
    (p.next i o).2.rxCntAck = i.rxCnt := by
  cases h : p.initState with
  | clearBuffers => rw [next_clear _ _ _ h]
  | reset => rw [next_reset _ _ _ h]
  | done => rw [next_done _ _ _ h]

example : ((MessageProcessor.new .EightBytes).next exIn exOut).2.rxCntAck = 1 := by decide

/-- Successive reads with the given buffer sizes; the results of the reads. -/
def reads (p : MessageProcessor) : List Nat → Res (MessageProcessor × List (List Byte))
  | [] => .ok (p, [])
  | n :: ns => (p.read n).bind fun r => (reads r.1 ns).bind fun t => .ok (t.1, r.2 :: t.2)

/-- C30: a read returns the first `min n available` buffered bytes, and nothing but the receive
buffer changes. -/
theorem C30_read (p : MessageProcessor) (n : Nat) :
    ∃ p' bytes, p.read n = .ok (p', bytes) ∧ bytes.length = min n p.inData.length ∧
      bytes ++ p'.inData = p.inData ∧ p' = { p with inData := p'.inData } := by
  refine ⟨_, _, read_ok p n, by simp, by simp, rfl⟩

/-- C30: for any sequence of buffer sizes the results, concatenated, are a prefix of the buffered
bytes, and the rest stays buffered. -/
theorem C30_reads (p : MessageProcessor) (ns : List Nat) :
    ∃ p' rs, reads p ns = .ok (p', rs) ∧ rs.length = ns.length ∧
      rs.flatten ++ p'.inData = p.inData ∧ p' = { p with inData := p'.inData } := by
  induction ns generalizing p with
  | nil => exact ⟨p, [], rfl, rfl, rfl, rfl⟩
  | cons n ns ih =>
    obtain ⟨p', rs, h1, h2, h3, h4⟩ := ih { p with inData := p.inData.drop n }
    refine ⟨p', p.inData.take n :: rs, ?_, by simp [h2], ?_, ?_⟩
    · simp [reads, read_ok, h1]
    · simp only [List.flatten_cons, List.append_assoc, h3]; simp
    · rw [h4]

example : reads { MessageProcessor.new .EightBytes with inData := [1#8, 2#8, 3#8] } [2, 0, 5]
    = .ok (MessageProcessor.new .EightBytes, [[1#8, 2#8], [], [3#8]]) := by decide

end Ur20
