import Verif.Lemmas.Serial
import Verif.Spec.SerialDevice

/-! Lemmas and invariants for the serial protocol. -/

namespace Ur20

open Com Spec

theorem incCnt_eq (a : Nat) (h : a < 4) : incCnt a = (a + 1) % 4 := by
  unfold incCnt
  by_cases ha : a = 3
  · subst ha; rfl
  · simp only; rw [if_neg (by omega), Nat.mod_eq_of_lt (by omega)]

theorem incCnt_lt (a : Nat) : incCnt a < 4 := by
  unfold incCnt; simp only; split <;> omega

/-! ### Reading -/

theorem readLoop_ok (n : Nat) (d : List Byte) (h : n ≤ d.length) :
    readLoop n d = .ok (d.take n, d.drop n) := by
  induction n generalizing d with
  | zero => simp [readLoop]
  | succ n ih =>
    cases d with
    | nil => simp at h
    | cons b d => simp [readLoop, ih d (by simpa using h)]

theorem read_ok (p : MessageProcessor) (n : Nat) :
    p.read n = .ok ({ p with inData := p.inData.drop n }, p.inData.take n) := by
  unfold MessageProcessor.read
  split
  · rename_i h
    have : p.inData = [] := by simpa using h
    cases p
    simp_all
  · rw [readLoop_ok _ _ (Nat.min_le_right _ _)]
    have h1 : p.inData.take (min n p.inData.length) = p.inData.take n := by
      rw [List.take_eq_take_iff]; omega
    have h2 : p.inData.drop (min n p.inData.length) = p.inData.drop n := by
      by_cases h : n ≤ p.inData.length
      · rw [Nat.min_eq_left h]
      · rw [Nat.min_eq_right (by omega), List.drop_length, List.drop_eq_nil_of_le (by omega)]
    simp [h1, h2]

/-! ### Writing -/

theorem chunksAux_flatten (n : Nat) (hn : 0 < n) (fuel : Nat) (l : List Byte)
    (h : l.length ≤ fuel) : (chunksAux n fuel l).flatten = l := by
  induction fuel generalizing l with
  | zero =>
    have : l = [] := List.length_eq_zero_iff.1 (by omega)
    simp [chunksAux, this]
  | succ f ih =>
    unfold chunksAux
    split
    · rename_i he; simp at he; simp [he]
    · rename_i he
      have : l.length ≠ 0 := by simpa using he
      rw [List.flatten_cons, ih _ (by simp; omega), List.take_append_drop]

theorem chunksAux_mem (n : Nat) (hn : 0 < n) (fuel : Nat) (l : List Byte) (c : List Byte)
    (hc : c ∈ chunksAux n fuel l) : 0 < c.length ∧ c.length ≤ n := by
  induction fuel generalizing l with
  | zero => simp [chunksAux] at hc
  | succ f ih =>
    unfold chunksAux at hc
    split at hc
    · simp at hc
    · rename_i he
      have : l.length ≠ 0 := by simpa using he
      rcases List.mem_cons.1 hc with rfl | hc
      · simp; omega
      · exact ih _ hc

theorem chunks_flatten (n : Nat) (hn : 0 < n) (l : List Byte) : (chunks n l).flatten = l :=
  chunksAux_flatten n hn _ l (Nat.le_refl _)

theorem chunks_mem (n : Nat) (hn : 0 < n) (l c : List Byte) (hc : c ∈ chunks n l) :
    0 < c.length ∧ c.length ≤ n := chunksAux_mem n hn _ l c hc

@[simp] theorem write_outData_flatten (p : MessageProcessor) (b : List Byte) :
    (p.write b).1.outData.flatten = p.outData.flatten ++ b := by
  simp [MessageProcessor.write, chunks_flatten _ (userDataLen_pos _)]

@[simp] theorem write_initState (p : MessageProcessor) (b : List Byte) :
    (p.write b).1.initState = p.initState := rfl
@[simp] theorem write_lastRxCnt (p : MessageProcessor) (b : List Byte) :
    (p.write b).1.lastRxCnt = p.lastRxCnt := rfl
@[simp] theorem write_inData (p : MessageProcessor) (b : List Byte) :
    (p.write b).1.inData = p.inData := rfl
@[simp] theorem write_len (p : MessageProcessor) (b : List Byte) :
    (p.write b).1.processDataLen = p.processDataLen := rfl

/-! ### One cycle -/

theorem next_clear (p : MessageProcessor) (i : RsIn) (o : RsOut)
    (h : p.initState = .clearBuffers) :
    p.next i o = ({ p with initState := .reset },
      { o with data := [], reset := false, rxBufFlush := true, txBufFlush := true,
               rxCntAck := i.rxCnt }) := by
  unfold MessageProcessor.next; rw [h]

theorem next_reset (p : MessageProcessor) (i : RsIn) (o : RsOut)
    (h : p.initState = .reset) :
    p.next i o = ({ p with lastRxCnt := 4, initState := .done },
      { o with data := [], reset := true, rxBufFlush := false, txBufFlush := false,
               rxCntAck := i.rxCnt }) := by
  unfold MessageProcessor.next; rw [h]

theorem next_done (p : MessageProcessor) (i : RsIn) (o : RsOut) (h : p.initState = .done) :
    p.next i o = ((p.nextTx i o).1.nextRx i, { (p.nextTx i o).2 with rxCntAck := i.rxCnt }) := by
  unfold MessageProcessor.next; rw [h]

theorem nextTx_nil (p : MessageProcessor) (i : RsIn) (o : RsOut) (h : p.outData = []) :
    p.nextTx i o = (p, o) := by
  unfold MessageProcessor.nextTx; rw [h]

theorem nextTx_busy (p : MessageProcessor) (i : RsIn) (o : RsOut)
    (h : incCnt i.txCntAck = o.txCnt) : p.nextTx i o = (p, o) := by
  unfold MessageProcessor.nextTx
  split
  · rfl
  · rw [if_neg (by simpa using h)]

theorem nextTx_send (p : MessageProcessor) (i : RsIn) (o : RsOut) (c : List Byte)
    (cs : List (List Byte)) (h : p.outData = c :: cs) (hb : incCnt i.txCntAck ≠ o.txCnt) :
    p.nextTx i o = ({ p with outData := cs },
      { o with txCnt := incCnt i.txCntAck, data := c }) := by
  unfold MessageProcessor.nextTx
  rw [h]; simp only; rw [if_pos hb]

/-- The transmit half never touches the receive half. -/
theorem nextTx_frame (p : MessageProcessor) (i : RsIn) (o : RsOut) :
    (p.nextTx i o).1.inData = p.inData ∧ (p.nextTx i o).1.lastRxCnt = p.lastRxCnt ∧
    (p.nextTx i o).1.initState = p.initState ∧
    (p.nextTx i o).1.processDataLen = p.processDataLen := by
  unfold MessageProcessor.nextTx
  split
  · simp
  · split <;> simp

theorem nextTx_flags (p : MessageProcessor) (i : RsIn) (o : RsOut) :
    (p.nextTx i o).2.rxBufFlush = o.rxBufFlush ∧ (p.nextTx i o).2.txBufFlush = o.txBufFlush ∧
    (p.nextTx i o).2.disableTxHwBuffer = o.disableTxHwBuffer ∧
    (p.nextTx i o).2.reset = o.reset := by
  unfold MessageProcessor.nextTx
  split
  · simp
  · split <;> simp

theorem nextRx_frame (p : MessageProcessor) (i : RsIn) :
    (p.nextRx i).outData = p.outData ∧ (p.nextRx i).initState = p.initState ∧
    (p.nextRx i).processDataLen = p.processDataLen := by
  unfold MessageProcessor.nextRx; split <;> simp

theorem nextRx_take (p : MessageProcessor) (i : RsIn) (h1 : i.dataAvailable = true)
    (h2 : p.lastRxCnt ≠ i.rxCnt) :
    (p.nextRx i).inData = p.inData ++ i.data ∧ (p.nextRx i).lastRxCnt = i.rxCnt := by
  unfold MessageProcessor.nextRx
  rw [if_pos (by simp [h1, h2])]
  simp

theorem nextRx_skip (p : MessageProcessor) (i : RsIn)
    (h : i.dataAvailable = false ∨ p.lastRxCnt = i.rxCnt) : p.nextRx i = p := by
  unfold MessageProcessor.nextRx
  rw [if_neg]
  rcases h with h | h <;> simp [h]

/-! ### Histories of one processor -/

/-- The initialisation state after a number of cycles. -/
def initStateOf : Nat → InitState
  | 0 => .clearBuffers
  | 1 => .reset
  | _ => .done

theorem next_initState (p : MessageProcessor) (i : RsIn) (o : RsOut) (n : Nat)
    (h : p.initState = initStateOf n) : (p.next i o).1.initState = initStateOf (n + 1) := by
  match n, h with
  | 0, h => rw [next_clear _ _ _ h]; rfl
  | 1, h => rw [next_reset _ _ _ h]; rfl
  | n + 2, h =>
    rw [next_done _ _ _ h]
    rw [(nextRx_frame _ _).2.1, (nextTx_frame _ _ _).2.2.1, h]
    rfl

theorem runOps_initState (p : MessageProcessor) (ops : List Op) (n : Nat)
    (h : p.initState = initStateOf n) :
    (runOps p ops).initState = initStateOf (n + cycles ops) := by
  induction ops generalizing p n with
  | nil => simpa [runOps, cycles] using h
  | cons op ops ih =>
    have hr : runOps p (op :: ops) = runOps (op.apply p) ops := rfl
    rw [hr]
    cases op with
    | next i o =>
      rw [ih (Op.apply p (.next i o)) (n + 1) (next_initState p i o n h)]
      simp only [cycles]; congr 1; omega
    | write b => rw [ih _ n (by simpa [Op.apply] using h)]; rfl
    | read k =>
      rw [ih _ n (by simp only [Op.apply, read_ok]; exact h)]; rfl

theorem runOps_new (len : ProcessDataLength) (ops : List Op) :
    (runOps (MessageProcessor.new len) ops).initState = initStateOf (cycles ops) := by
  have := runOps_initState (MessageProcessor.new len) ops 0 rfl
  simpa using this

theorem next_len (p : MessageProcessor) (i : RsIn) (o : RsOut) :
    (p.next i o).1.processDataLen = p.processDataLen := by
  cases h : p.initState with
  | clearBuffers => rw [next_clear _ _ _ h]
  | reset => rw [next_reset _ _ _ h]
  | done =>
    rw [next_done _ _ _ h, (nextRx_frame _ _).2.2, (nextTx_frame _ _ _).2.2.2]

/-- Queued segments are not empty and fit into a frame. -/
def QueueOk (len : ProcessDataLength) (p : MessageProcessor) : Prop :=
  p.processDataLen = len ∧ ∀ c ∈ p.outData, 0 < c.length ∧ c.length ≤ len.userDataLen

theorem QueueOk.next {len : ProcessDataLength} {p : MessageProcessor} (h : QueueOk len p)
    (i : RsIn) (o : RsOut) : QueueOk len (p.next i o).1 := by
  refine ⟨by rw [next_len]; exact h.1, ?_⟩
  cases hs : p.initState with
  | clearBuffers => rw [next_clear _ _ _ hs]; exact h.2
  | reset => rw [next_reset _ _ _ hs]; exact h.2
  | done =>
    rw [next_done _ _ _ hs, (nextRx_frame _ _).1]
    unfold MessageProcessor.nextTx
    split
    · exact h.2
    · rename_i c cs hc
      split
      · intro d hd; exact h.2 d (by rw [hc]; simp [hd])
      · exact h.2

theorem QueueOk.write {len : ProcessDataLength} {p : MessageProcessor} (h : QueueOk len p)
    (b : List Byte) : QueueOk len (p.write b).1 := by
  refine ⟨h.1, ?_⟩
  intro c hc
  simp only [MessageProcessor.write, List.mem_append] at hc
  rcases hc with hc | hc
  · exact h.2 c hc
  · rw [h.1] at hc
    exact chunks_mem _ (userDataLen_pos _) _ _ hc

theorem QueueOk.runOps {len : ProcessDataLength} {p : MessageProcessor} (h : QueueOk len p)
    (ops : List Op) : QueueOk len (Spec.runOps p ops) := by
  induction ops generalizing p with
  | nil => exact h
  | cons op ops ih =>
    refine ih (p := op.apply p) ?_
    cases op with
    | next i o => exact h.next i o
    | write b => exact h.write b
    | read k => simp only [Op.apply, read_ok]; exact h

theorem QueueOk.new (len : ProcessDataLength) : QueueOk len (MessageProcessor.new len) :=
  ⟨rfl, by simp [MessageProcessor.new]⟩

/-! ### The closed system: transmit direction -/

namespace Spec.Sys

structure TxInv (s : Sys) : Prop where
  init : s.p.initState = initStateOf s.cycles
  ack : s.ack < 4
  bytes : s.received ++ s.inFlight ++ s.queued = s.written
  data : s.p.initState ≠ .done → s.out.data = []
  pend : ∀ r, s.pending = some r →
    (r.txCnt = s.out.txCnt ∧ r.data = s.out.data) ∨
    (s.p.initState = .done ∧ s.out.txCnt ≠ (s.ack + 1) % 4 ∧ r.txCnt = (s.ack + 1) % 4)

theorem TxInv.initial {len : ProcessDataLength} {s : Sys} (h : s.Initial len) : s.TxInv where
  init := by rw [h.p, h.cycles]; rfl
  ack := h.ack
  bytes := by
    obtain ⟨h1, h2, -⟩ := h.logs
    simp [inFlight, queued, h1, h2, h.pending, h.data, h.p, MessageProcessor.new]
  data := fun _ => h.data
  pend := by simp [h.pending]

theorem TxInv.step {s : Sys} (h : s.TxInv) (e : Ev) : (s.step e).TxInv := by
  cases e with
  | write b =>
    refine ⟨h.init, h.ack, ?_, h.data, h.pend⟩
    show s.received ++ s.inFlight ++ (s.p.write b).1.outData.flatten = s.written ++ b
    rw [write_outData_flatten, ← h.bytes]
    simp [queued]
  | read n =>
    simp only [Sys.step, read_ok]
    exact ⟨h.init, h.ack, h.bytes, h.data, h.pend⟩
  | post seg =>
    simp only [Sys.step]
    split
    · exact ⟨h.init, h.ack, h.bytes, h.data, h.pend⟩
    · exact h
  | hide =>
    simp only [Sys.step]
    split
    · exact ⟨h.init, h.ack, h.bytes, h.data, h.pend⟩
    · exact h
  | restart n =>
    simp only [Sys.step]
    split
    · rename_i hg
      refine ⟨h.init, n.isLt, ?_, h.data, ?_⟩
      · have := h.bytes
        simp only [inFlight, hg.1, hg.2, queued, ite_self] at this ⊢
        exact this
      · intro r hr; rw [hg.1] at hr; simp at hr
    · exact h
  | take =>
    simp only [Sys.step]
    split
    · rename_i hg
      refine ⟨h.init, by show s.out.txCnt < 4; omega, ?_, h.data, ?_⟩
      · have := h.bytes
        simp only [inFlight, hg, if_true, queued] at this ⊢
        rw [if_neg (by omega)]
        simpa using this
      · intro r hr
        rcases h.pend r hr with h1 | ⟨-, h2, -⟩
        · exact .inl h1
        · exact absurd hg h2
    · exact h
  | finish =>
    simp only [Sys.step]
    split
    · rename_i r hr
      rcases h.pend r hr with ⟨h1, h2⟩ | ⟨h0, h1, h2⟩
      · refine ⟨h.init, h.ack, ?_, ?_, by simp⟩
        · have := h.bytes
          simp only [inFlight, hr, h1, h2, queued, ne_eq, not_true_eq_false, if_false] at this ⊢
          exact this
        · intro hd; show r.data = []; rw [h2]; exact h.data hd
      · refine ⟨h.init, h.ack, ?_, fun hd => absurd h0 hd, by simp⟩
        have := h.bytes
        simp only [inFlight, hr, queued, h1, h2, if_false, if_true, ne_eq] at this ⊢
        rw [if_pos (by omega)] at this
        simpa using this
    · exact h
  | start nf rdy =>
    simp only [Sys.step]
    split
    · exact h
    · rename_i hp
      have hp : s.pending = none := by simpa using hp
      have hi := h.init
      -- the receive logs are irrelevant here
      have key : TxInv { s with
          p := (s.p.next (s.input nf rdy) s.out).1
          pending := some (s.p.next (s.input nf rdy) s.out).2
          cycles := s.cycles + 1 } := by
        have hb := h.bytes
        simp only [inFlight, hp, queued, List.append_nil] at hb
        refine ⟨next_initState _ _ _ _ hi, h.ack, ?_, ?_, ?_⟩
        · simp only [inFlight, queued]
          match hc : s.cycles with
          | 0 =>
            rw [hc] at hi
            rw [next_clear _ _ _ hi]
            simpa using hb
          | 1 =>
            rw [hc] at hi
            rw [next_reset _ _ _ hi]
            simpa using hb
          | n + 2 =>
            rw [hc] at hi
            rw [next_done _ _ _ hi]
            simp only [(nextRx_frame _ _).1]
            by_cases hbusy : incCnt s.ack = s.out.txCnt
            · rw [nextTx_busy _ _ _ (by simpa [input] using hbusy)]
              simpa using hb
            · cases hq : s.p.outData with
              | nil =>
                rw [nextTx_nil _ _ _ hq, hq]
                simpa [hq] using hb
              | cons c cs =>
                rw [nextTx_send _ _ _ c cs hq (by simpa [input] using hbusy)]
                have hne : s.out.txCnt ≠ (s.ack + 1) % 4 := by
                  rw [← incCnt_eq _ h.ack]; exact fun h => hbusy h.symm
                simp only [input, incCnt_eq _ h.ack, if_neg hne]
                rw [if_pos (by simpa using fun h => hne h.symm)]
                simp only [if_neg hne, hq] at hb
                simpa using hb
        · intro hd
          simp only at hd ⊢
          match hc : s.cycles with
          | 0 => rw [hc] at hi; exact h.data (by rw [hi]; simp [initStateOf])
          | 1 => rw [hc] at hi; exact h.data (by rw [hi]; simp [initStateOf])
          | n + 2 =>
            rw [next_initState _ _ _ _ hi, hc] at hd
            exact absurd rfl hd
        · intro r hr
          simp only [Option.some.injEq] at hr
          subst hr
          simp only
          match hc : s.cycles with
          | 0 =>
            rw [hc] at hi
            have hd := h.data (by rw [hi]; simp [initStateOf])
            rw [next_clear _ _ _ hi]
            exact .inl ⟨rfl, hd.symm⟩
          | 1 =>
            rw [hc] at hi
            have hd := h.data (by rw [hi]; simp [initStateOf])
            rw [next_reset _ _ _ hi]
            exact .inl ⟨rfl, hd.symm⟩
          | n + 2 =>
            rw [hc] at hi
            have hdone := next_initState _ (s.input nf rdy) s.out _ hi
            rw [hdone]
            rw [next_done _ _ _ hi]
            by_cases hbusy : incCnt s.ack = s.out.txCnt
            · rw [nextTx_busy _ _ _ (by simpa [input] using hbusy)]
              exact .inl ⟨rfl, rfl⟩
            · cases hq : s.p.outData with
              | nil =>
                rw [nextTx_nil _ _ _ hq]
                exact .inl ⟨rfl, rfl⟩
              | cons c cs =>
                rw [nextTx_send _ _ _ c cs hq (by simpa [input] using hbusy)]
                rw [incCnt_eq _ h.ack] at hbusy
                exact .inr ⟨rfl, fun h => hbusy h.symm, incCnt_eq _ h.ack⟩
      split
      · exact ⟨key.init, key.ack, key.bytes, key.data, key.pend⟩
      · exact key

theorem TxInv.run {s : Sys} (h : s.TxInv) (evs : List Ev) : (s.run evs).TxInv := by
  induction evs generalizing s with
  | nil => exact h
  | cons e evs ih => exact ih (h.step e)

/-! ### The closed system: receive direction -/

structure RxInv (s : Sys) : Prop where
  init : s.p.initState = initStateOf s.cycles
  cnt : s.rxCnt < 4
  bytes : s.delivered ++ s.p.inData = s.seen
  early : s.cycles < 2 → s.fresh = true
  logged : s.fresh = false → s.p.lastRxCnt = s.rxCnt
  unlogged : 2 ≤ s.cycles → s.fresh = true → s.p.lastRxCnt = 4 ∨
    ((s.p.lastRxCnt + 1) % 4 = s.rxCnt ∧ s.p.lastRxCnt < 4 ∧ s.avail = true ∧
      s.out.rxCntAck ≠ s.rxCnt ∧ ∀ r, s.pending = some r → r.rxCntAck ≠ s.rxCnt)
  pend : ∀ r, s.pending = some r →
    r.rxCntAck = s.rxCnt ∨ (s.out.rxCntAck ≠ s.rxCnt ∧ r.rxCntAck ≠ s.rxCnt)

theorem RxInv.initial {len : ProcessDataLength} {s : Sys} (h : s.Initial len) : s.RxInv where
  init := by rw [h.p, h.cycles]; rfl
  cnt := h.rxCnt
  bytes := by simp [h.logs, h.p, MessageProcessor.new]
  early := fun _ => h.logs.2.2.2.2
  logged := by simp [h.logs]
  unlogged := by simp [h.cycles]
  pend := by simp [h.pending]

theorem next_rxCntAck (p : MessageProcessor) (i : RsIn) (o : RsOut) :
    (p.next i o).2.rxCntAck = i.rxCnt := rfl

theorem RxInv.step {s : Sys} (h : s.RxInv) (e : Ev) : (s.step e).RxInv := by
  cases e with
  | write b => exact ⟨h.init, h.cnt, h.bytes, h.early, h.logged, h.unlogged, h.pend⟩
  | read n =>
    simp only [Sys.step, read_ok]
    refine ⟨h.init, h.cnt, ?_, h.early, h.logged, h.unlogged, h.pend⟩
    simp only [List.append_assoc, List.take_append_drop]
    exact h.bytes
  | take =>
    simp only [Sys.step]
    split
    · exact ⟨h.init, h.cnt, h.bytes, h.early, h.logged, h.unlogged, h.pend⟩
    · exact h
  | restart n =>
    simp only [Sys.step]
    split
    · exact ⟨h.init, h.cnt, h.bytes, h.early, h.logged, h.unlogged, h.pend⟩
    · exact h
  | finish =>
    simp only [Sys.step]
    split
    · rename_i r hr
      refine ⟨h.init, h.cnt, h.bytes, h.early, h.logged, ?_, by simp⟩
      intro hc hf
      rcases h.unlogged hc hf with h1 | ⟨h1, h2, h3, h4, h5⟩
      · exact .inl h1
      · exact .inr ⟨h1, h2, h3, h5 r hr, by simp⟩
    · exact h
  | hide =>
    simp only [Sys.step]
    split
    · rename_i hg
      refine ⟨h.init, h.cnt, h.bytes, h.early, h.logged, ?_, h.pend⟩
      intro hc hf
      rcases h.unlogged hc hf with h1 | ⟨h1, h2, h3, h4, h5⟩
      · exact .inl h1
      · exact absurd hg h4
    · exact h
  | post seg =>
    simp only [Sys.step]
    split
    · rename_i hg
      have hc4 := h.cnt
      have hne : (s.rxCnt + 1) % 4 ≠ s.rxCnt := by omega
      refine ⟨h.init, Nat.mod_lt _ (by omega), h.bytes, fun _ => rfl, by simp, ?_, ?_⟩
      · intro hc _
        cases hf : s.fresh with
        | true =>
          rcases h.unlogged hc hf with h1 | ⟨-, -, -, h4, -⟩
          · exact .inl h1
          · exact absurd hg h4
        | false =>
          have hl := h.logged hf
          refine .inr ⟨by simp [hl], by simp [hl, hc4], rfl, by simp only [hg]; exact hne.symm, ?_⟩
          intro r hr
          rcases h.pend r hr with h1 | ⟨h1, -⟩
          · simp only [h1]; exact hne.symm
          · exact absurd hg h1
      · intro r hr
        rcases h.pend r hr with h1 | ⟨h1, -⟩
        · exact .inr ⟨by simp only [hg]; exact hne.symm, by simp only [h1]; exact hne.symm⟩
        · exact absurd hg h1
    · exact h
  | start nf rdy =>
    simp only [Sys.step]
    split
    · exact h
    · rename_i hp
      have hp : s.pending = none := by simpa using hp
      have hi := h.init
      have hinit := next_initState s.p (s.input nf rdy) s.out _ hi
      have hpend : ∀ r, some (s.p.next (s.input nf rdy) s.out).2 = some r →
          r.rxCntAck = s.rxCnt ∨ (s.out.rxCntAck ≠ s.rxCnt ∧ r.rxCntAck ≠ s.rxCnt) := by
        intro r hr
        simp only [Option.some.injEq] at hr
        subst hr
        exact .inl rfl
      match hc : s.cycles with
      | 0 =>
        rw [hc] at hi hinit
        have hf := h.early (by omega)
        rw [if_neg (by simp)]
        refine ⟨hinit, h.cnt, ?_, fun _ => hf, by simp [hf], by simp, hpend⟩
        rw [next_clear _ _ _ hi]; exact h.bytes
      | 1 =>
        rw [hc] at hi hinit
        have hf := h.early (by omega)
        rw [if_neg (by simp)]
        refine ⟨hinit, h.cnt, ?_, fun _ => hf, by simp [hf], ?_, hpend⟩
        · rw [next_reset _ _ _ hi]; exact h.bytes
        · intro _ _
          rw [next_reset _ _ _ hi]
          exact .inl rfl
      | n + 2 =>
        rw [hc] at hi hinit
        obtain ⟨f1, f2, f3, f4⟩ := nextTx_frame s.p (s.input nf rdy) s.out
        have hc4 := h.cnt
        by_cases hav : s.avail = true
        · cases hf : s.fresh with
          | true =>
            rw [if_pos ⟨by omega, hav, rfl⟩]
            have hne : s.p.lastRxCnt ≠ s.rxCnt := by
              rcases h.unlogged (by omega) hf with h1 | ⟨h1, h2, -⟩ <;> omega
            obtain ⟨g1, g2⟩ := nextRx_take (s.p.nextTx (s.input nf rdy) s.out).1 (s.input nf rdy)
              hav (by rw [f2]; exact hne)
            refine ⟨hinit, h.cnt, ?_, fun (hlt : n + 2 + 1 < 2) => by omega, ?_, by simp, hpend⟩
            · rw [next_done _ _ _ hi]
              simp only [g1, f1]
              rw [← List.append_assoc, h.bytes]
              rfl
            · intro _
              rw [next_done _ _ _ hi]
              simp only [g2]
              rfl
          | false =>
            rw [if_neg (by simp)]
            have hl := h.logged hf
            have hs := nextRx_skip (s.p.nextTx (s.input nf rdy) s.out).1 (s.input nf rdy)
              (.inr (by rw [f2]; exact hl))
            refine ⟨hinit, h.cnt, ?_, fun (hlt : n + 2 + 1 < 2) => by omega, ?_, by simp, hpend⟩
            · rw [next_done _ _ _ hi, hs]
              simp only [f1]
              exact h.bytes
            · intro _
              rw [next_done _ _ _ hi, hs]
              simp only [f2]
              exact hl
        · have hav : s.avail = false := by simpa using hav
          rw [if_neg (by simp [hav])]
          have hs := nextRx_skip (s.p.nextTx (s.input nf rdy) s.out).1 (s.input nf rdy)
            (.inl hav)
          refine ⟨hinit, h.cnt, ?_, fun (hlt : n + 2 + 1 < 2) => by omega, ?_, ?_, hpend⟩
          · rw [next_done _ _ _ hi, hs]
            simp only [f1]
            exact h.bytes
          · intro hf
            rw [next_done _ _ _ hi, hs]
            simp only [f2]
            exact h.logged hf
          · intro _ hf
            rw [next_done _ _ _ hi, hs]
            simp only [f2]
            rcases h.unlogged (by omega) hf with h1 | ⟨-, -, h3, -⟩
            · exact .inl h1
            · simp [hav] at h3

theorem RxInv.run {s : Sys} (h : s.RxInv) (evs : List Ev) : (s.run evs).RxInv := by
  induction evs generalizing s with
  | nil => exact h
  | cons e evs ih => exact ih (h.step e)

end Spec.Sys

end Ur20
