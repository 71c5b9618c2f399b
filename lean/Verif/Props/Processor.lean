import Verif.Model.ImperativeCom
import Verif.Spec.Processor
import Verif.Props.Protocol

/-!
# C98: a message processor used directly

A `MessageProcessor` without a coupler, called in any order with any process data.
-/

namespace Ur20

open Com Spec

/-- The phase of a processor after `n` cycles. -/
private def Phase (p : MessageProcessor) (n : Nat) (last : Option Nat) : Prop :=
  (n = 0 ∧ p.initState = .clearBuffers ∧ last = none) ∨
  (n = 1 ∧ p.initState = .reset ∧ last = none) ∨
  (2 ≤ n ∧ p.initState = .done ∧ p.lastRxCnt = last.getD 4)

private theorem received_from (ops : List Op) :
    ∀ (p : MessageProcessor) (n : Nat) (last : Option Nat),
      (∀ i o, Op.next i o ∈ ops → i.rxCnt < 4) → Phase p n last →
      reading p ops ++ (runOps p ops).inData = p.inData ++ arriving n last ops := by
  induction ops with
  | nil =>
    intro p n last _ _
    simp [reading, arriving, runOps]
  | cons op ops ih =>
    intro p n last hlt hp
    have hlt' : ∀ i o, Op.next i o ∈ ops → i.rxCnt < 4 :=
      fun i o h => hlt i o (List.mem_cons_of_mem _ h)
    have hrun : runOps p (op :: ops) = runOps (op.apply p) ops := rfl
    rw [hrun]
    cases op with
    | write b =>
      have := ih (p.write b).1 n last hlt' hp
      simpa [reading, arriving, Op.apply] using this
    | read k =>
      have := ih { p with inData := p.inData.drop k } n last hlt' hp
      simp only [reading, arriving, Op.apply, read_ok, List.append_assoc, this]
      rw [← List.append_assoc, List.take_append_drop]
    | next i o =>
      have hi := hlt i o (List.mem_cons_self ..)
      simp only [reading, arriving, Op.apply, List.nil_append]
      rcases hp with ⟨rfl, hs, rfl⟩ | ⟨rfl, hs, rfl⟩ | ⟨hn, hs, hl⟩
      · rw [next_clear _ _ _ hs]
        rw [ih _ 1 none hlt' (.inr (.inl ⟨rfl, rfl, rfl⟩))]
        simp
      · rw [next_reset _ _ _ hs]
        rw [ih _ 2 none hlt' (.inr (.inr ⟨Nat.le_refl _, rfl, rfl⟩))]
        simp
      · rw [next_done _ _ _ hs]
        have hq : (p.nextTx i o).1.initState = .done ∧ (p.nextTx i o).1.lastRxCnt = p.lastRxCnt ∧
            (p.nextTx i o).1.inData = p.inData := by
          unfold MessageProcessor.nextTx
          split
          · exact ⟨hs, rfl, rfl⟩
          · split <;> exact ⟨hs, rfl, rfl⟩
        obtain ⟨q1, q2, q3⟩ := hq
        generalize (p.nextTx i o).1 = q at q1 q2 q3
        by_cases ht : i.dataAvailable = true ∧ last ≠ some i.rxCnt
        · have hne : q.lastRxCnt ≠ i.rxCnt := by
            rw [q2, hl]
            cases last with
            | none =>
              simp only [Option.getD_none]
              omega
            | some x =>
              simp only [Option.getD_some]
              intro he
              exact ht.2 (by rw [he])
          have hrx : q.nextRx i = { q with inData := q.inData ++ i.data, lastRxCnt := i.rxCnt } := by
            simp [MessageProcessor.nextRx, ht.1, hne]
          rw [if_pos ⟨hn, ht.1, ht.2⟩, hrx]
          rw [ih { q with inData := q.inData ++ i.data, lastRxCnt := i.rxCnt } (n + 1)
            (some i.rxCnt) hlt' (.inr (.inr ⟨by omega, q1, rfl⟩))]
          simp [q3]
        · have hrx : q.nextRx i = q := by
            simp only [MessageProcessor.nextRx]
            split
            · rename_i hc
              simp only [Bool.and_eq_true, bne_iff_ne, ne_eq] at hc
              refine absurd ⟨hc.1, ?_⟩ ht
              intro he
              apply hc.2
              rw [q2, hl, he]
              rfl
            · rfl
          rw [if_neg (fun hc => ht ⟨hc.2.1, hc.2.2⟩), hrx]
          rw [ih _ (n + 1) last hlt' (.inr (.inr ⟨by omega, q1, by rw [q2, hl]⟩))]
          rw [q3]

/-- What the reads of a history return, followed by what is still buffered, is what arrived, in
order. (Frames decoded from process data have a number below four.) -/
theorem C98_received (len : ProcessDataLength) (ops : List Op)
    (h : ∀ i o, Op.next i o ∈ ops → i.rxCnt < 4) :
    reading (MessageProcessor.new len) ops ++ (runOps (MessageProcessor.new len) ops).inData =
      arriving 0 none ops := by
  have := received_from ops (MessageProcessor.new len) 0 none h (.inl ⟨rfl, rfl, rfl⟩)
  simpa [MessageProcessor.new] using this

private theorem sent_from (ops : List Op) :
    ∀ p : MessageProcessor, sending p ops ++ (runOps p ops).outData.flatten =
      p.outData.flatten ++ writing ops := by
  induction ops with
  | nil =>
    intro p
    simp [sending, writing, runOps]
  | cons op ops ih =>
    intro p
    have hrun : runOps p (op :: ops) = runOps (op.apply p) ops := rfl
    rw [hrun]
    cases op with
    | write b => simp [sending, writing, Op.apply, ih]
    | read k => simp [sending, writing, Op.apply, ih, read_ok]
    | next i o =>
      simp only [sending, writing, Op.apply, List.append_assoc, ih]
      rw [← List.append_assoc]
      congr 1
      cases hs : p.initState with
      | clearBuffers => simp [next_clear _ _ _ hs]
      | reset => simp [next_reset _ _ _ hs]
      | done =>
        rw [next_done _ _ _ hs]
        have hrx : ∀ q : MessageProcessor, (q.nextRx i).outData = q.outData := by
          intro q
          unfold MessageProcessor.nextRx
          split <;> rfl
        simp only [hrx]
        unfold MessageProcessor.nextTx
        split
        · rename_i he
          simp [he]
        · rename_i c cs he
          by_cases hc : incCnt i.txCntAck = o.txCnt
          · simp [he, hc]
          · simp [he, hc]

/-- The data of the segments that a history starts, followed by what is still queued, is what was
written, in order, whatever frames the cycles get. -/
theorem C98_sent (len : ProcessDataLength) (ops : List Op) :
    sending (MessageProcessor.new len) ops ++
      (runOps (MessageProcessor.new len) ops).outData.flatten = writing ops := by
  have := sent_from ops (MessageProcessor.new len)
  simpa [MessageProcessor.new] using this

private theorem initState_done {n : Nat} : initStateOf n = .done ↔ 2 ≤ n := by
  match n with
  | 0 => simp [initStateOf]
  | 1 => simp [initStateOf]
  | n + 2 => simp [initStateOf]

private theorem done_of_cycles (len : ProcessDataLength) (ops : List Op) (hc : 2 ≤ cycles ops) :
    (runOps (MessageProcessor.new len) ops).initState = .done := by
  rw [runOps_new, initState_done]
  exact hc

/-- A cycle that keeps the segment number, after the first two cycles, keeps the segment. -/
theorem C98_repeated (len : ProcessDataLength) (ops : List Op) (hc : 2 ≤ cycles ops) (i : RsIn)
    (o : RsOut) :
    let p := runOps (MessageProcessor.new len) ops
    (p.next i o).2.txCnt = o.txCnt → (p.next i o).2 = { o with rxCntAck := i.rxCnt } := by
  intro p h
  have hs : p.initState = .done := done_of_cycles len ops hc
  rw [next_done _ _ _ hs] at h ⊢
  revert h
  unfold MessageProcessor.nextTx
  split
  · intro _
    rfl
  · by_cases hc : incCnt i.txCntAck = o.txCnt
    · simp [hc]
    · simp [hc]

private theorem incCnt_bits (oc : Bool) {w x : Nat} (hw : 2 ≤ w) (hx : x < 2 ^ w) :
    ImpCom.incCnt oc w x = if oc = true ∧ x = 2 ^ w - 1 then .panic else .ok (incCnt x) := by
  have h4 : 4 ≤ 2 ^ w := by
    calc 4 = 2 ^ 2 := rfl
      _ ≤ 2 ^ w := Nat.pow_le_pow_right (by omega) hw
  unfold ImpCom.incCnt incCnt
  by_cases h : x + 1 < 2 ^ w
  · have hne : ¬ (oc = true ∧ x = 2 ^ w - 1) := by omega
    rw [if_pos h, if_neg hne]
    rfl
  · have he : x + 1 = 2 ^ w := by omega
    have hx' : x = 2 ^ w - 1 := by omega
    rw [if_neg h]
    cases oc with
    | true => simp [hx', Res.bind_eq, Res.bind]
    | false =>
      simp only [Bool.false_eq_true, if_false, false_and, he, Nat.mod_self]
      simp only [Res.bind_eq, Res.pure_eq, Res.bind]
      simp only [show 2 ^ w > 3 by omega, if_true]
      rfl

/-- With counters of `w` bits a cycle panics in one case only: in a build with overflow checks, when
the initialised processor has something to send and gets the greatest number as acknowledgement.
Otherwise it is the cycle of the model, which has unbounded counters. -/
theorem C98_cycle (oc : Bool) (w : Nat) (hw : 2 ≤ w) (p : MessageProcessor) (i : RsIn) (o : RsOut)
    (hi : i.txCntAck < 2 ^ w) :
    ImpCom.next oc w p i o =
      if oc = true ∧ p.initState = .done ∧ p.outData ≠ [] ∧ i.txCntAck = 2 ^ w - 1 then .panic
      else .ok (p.next i o) := by
  unfold ImpCom.next
  cases hs : p.initState with
  | clearBuffers =>
    rw [next_clear _ _ _ hs]
    simp [Res.bind_eq, Res.bind, Res.pure_eq]
  | reset =>
    rw [next_reset _ _ _ hs]
    simp [Res.bind_eq, Res.bind, Res.pure_eq]
  | done =>
    rw [next_done _ _ _ hs]
    have he := incCnt_bits oc hw hi
    simp only [if_true, ImpCom.transmit]
    cases hq : p.outData with
    | nil => simp [hq, MessageProcessor.nextTx, Res.bind_eq, Res.bind, Res.pure_eq, ImpCom.receive,
        MessageProcessor.nextRx]
    | cons c cs =>
      by_cases hp : oc = true ∧ i.txCntAck = 2 ^ w - 1
      · rw [if_pos hp] at he
        simp only [he]
        simp [hp, Res.bind_eq, Res.bind]
      · rw [if_neg hp] at he
        have hp' : ¬ (oc = true ∧ True ∧ c :: cs ≠ [] ∧ i.txCntAck = 2 ^ w - 1) :=
          fun h => hp ⟨h.1, h.2.2.2⟩
        simp only [if_neg hp', he]
        by_cases hc : incCnt i.txCntAck = o.txCnt
        · simp [hq, hc, MessageProcessor.nextTx, Res.bind_eq, Res.bind, Res.pure_eq, ImpCom.receive,
            MessageProcessor.nextRx]
        · simp [hq, hc, MessageProcessor.nextTx, Res.bind_eq, Res.bind, Res.pure_eq, ImpCom.receive,
            MessageProcessor.nextRx, ImpCom.removeFirst]

/-- When a cycle panics, in terms of the history: overflow checks are on, the module is initialised,
something written has not been sent yet, and the acknowledged number is the greatest one. It does
not happen for frames decoded from process data, whose numbers are below four. -/
theorem C98_panics (oc : Bool) (w : Nat) (hw : 2 ≤ w) (len : ProcessDataLength) (ops : List Op)
    (i : RsIn) (o : RsOut) (hi : i.txCntAck < 2 ^ w) :
    ImpCom.next oc w (runOps (MessageProcessor.new len) ops) i o = .panic ↔
      oc = true ∧ 2 ≤ cycles ops ∧ sending (MessageProcessor.new len) ops ≠ writing ops ∧
        i.txCntAck = 2 ^ w - 1 := by
  have hq : (runOps (MessageProcessor.new len) ops).outData ≠ [] ↔
      sending (MessageProcessor.new len) ops ≠ writing ops := by
    rw [not_iff_not, ← C98_sent len ops]
    constructor
    · intro h
      simp [h]
    · intro h
      rw [List.self_eq_append_right, List.flatten_eq_nil_iff] at h
      cases hd : (runOps (MessageProcessor.new len) ops).outData with
      | nil => rfl
      | cons c cs =>
        have h1 := C27_segments len ops c (by rw [hd]; exact List.mem_cons_self ..)
        have h2 := h c (by rw [hd]; exact List.mem_cons_self ..)
        rw [h2] at h1
        simp at h1
  rw [C98_cycle oc w hw _ i o hi, ← hq, ← initState_done, ← runOps_new len ops]
  split
  · rename_i h
    simp [h]
  · rename_i h
    simp only [reduceCtorEq, false_iff]
    exact h

private theorem readLoop_into (n : Nat) :
    ∀ buf d : List Byte, n ≤ buf.length → n ≤ d.length →
      ImpCom.readLoop n buf d = .ok (d.take n ++ buf.drop n, d.drop n) := by
  induction n with
  | zero =>
    intro buf d _ _
    simp [ImpCom.readLoop]
  | succ n ih =>
    intro buf d hb hd
    match buf, d with
    | [], _ => simp at hb
    | _ :: _, [] => simp at hd
    | x :: buf, b :: d =>
      simp only [ImpCom.readLoop, ih buf d (by simpa using hb) (by simpa using hd), Res.bind]
      simp

/-- A read overwrites the front of the buffer with the oldest buffered bytes, leaves the rest of the
buffer alone, and returns how many they are: as many as there are and fit. -/
theorem C98_read (p : MessageProcessor) (buf : List Byte) :
    ∃ bytes rest, p.inData = bytes ++ rest ∧ bytes.length = min buf.length p.inData.length ∧
      ImpCom.read p buf =
        .ok ({ p with inData := rest }, bytes ++ buf.drop bytes.length, bytes.length) ∧
      p.read buf.length = .ok ({ p with inData := rest }, bytes) := by
  refine ⟨p.inData.take buf.length, p.inData.drop buf.length, by simp, by simp, ?_, read_ok p _⟩
  unfold ImpCom.read
  split
  · rename_i h
    have : p.inData = [] := by simpa using h
    cases p
    simp_all
  · simp only
    rw [readLoop_into _ _ _ (Nat.min_le_left ..) (Nat.min_le_right ..)]
    simp only [Res.bind, Res.ok.injEq, Prod.mk.injEq, List.length_take]
    have h1 : p.inData.take (min buf.length p.inData.length) = p.inData.take buf.length := by
      rw [← List.take_take, List.take_length]
    have h2 : p.inData.drop (min buf.length p.inData.length) = p.inData.drop buf.length := by
      by_cases h : buf.length ≤ p.inData.length
      · rw [Nat.min_eq_left h]
      · rw [Nat.min_eq_right (by omega), List.drop_length, List.drop_eq_nil_of_le (by omega)]
    exact ⟨by rw [h2], by rw [h1], trivial⟩

private theorem writeLoop_eq (cs : List (List Byte)) :
    ∀ p, ImpCom.writeLoop p cs = { p with outData := p.outData ++ cs } := by
  induction cs with
  | nil =>
    intro p
    simp [ImpCom.writeLoop]
  | cons c cs ih =>
    intro p
    simp [ImpCom.writeLoop, ih]

/-- A write pushes its segments one by one; this is the write of the model. -/
theorem C98_write (p : MessageProcessor) (buf : List Byte) : ImpCom.write p buf = p.write buf := by
  unfold ImpCom.write MessageProcessor.write
  rw [writeLoop_eq]

/-- Two cycles of initialisation, then a write of eight bytes (two segments of six and two bytes),
cycles with a frame, the same frame again and a new one, and reads in between. -/
def exDirect : List Op :=
  [.next exIn exOut, .write [1, 2, 3, 4, 5, 6, 7, 8], .next exIn exOut,
    .next ⟨true, false, 1, 0, true, [11, 12, 13]⟩ exOut, .read 2,
    .next ⟨true, false, 1, 0, true, [11, 12, 13]⟩ { exOut with txCnt := 1 },
    .next ⟨true, false, 2, 0, true, [14]⟩ { exOut with txCnt := 1 }, .read 1]

example : (∀ i o, Op.next i o ∈ exDirect → i.rxCnt < 4) ∧ 2 ≤ cycles exDirect ∧
    arriving 0 none exDirect = [11, 12, 13, 14] ∧
    reading (MessageProcessor.new .EightBytes) exDirect = [11, 12, 13] ∧
    writing exDirect = [1, 2, 3, 4, 5, 6, 7, 8] ∧
    sending (MessageProcessor.new .EightBytes) exDirect = [1, 2, 3, 4, 5, 6] := by
  refine ⟨?_, by decide, by decide, by decide, by decide, by decide⟩
  intro i o h
  simp only [exDirect, List.mem_cons, Op.next.injEq, List.not_mem_nil, or_false, reduceCtorEq,
    false_or] at h
  rcases h with h | h | h | h | h <;> obtain ⟨rfl, rfl⟩ := h <;> decide

/-- The panic of `C98_panics` on a 64 bit machine. -/
example : ImpCom.next true 64 (runOps (MessageProcessor.new .EightBytes) exDirect)
    ⟨true, false, 2, 2 ^ 64 - 1, false, []⟩ exOut = .panic := by decide +kernel

/-- A buffer of four bytes gets the one buffered byte. -/
example : ImpCom.read (runOps (MessageProcessor.new .EightBytes) exDirect) [9, 9, 9, 9] =
    .ok ({ runOps (MessageProcessor.new .EightBytes) exDirect with inData := [] },
      [14, 9, 9, 9], 1) := by decide +kernel

end Ur20
