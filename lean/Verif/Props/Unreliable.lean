import Verif.Spec.Unreliable
import Verif.Props.Protocol

/-!
# Lost transfers and restarts of the application: C83, C84
-/

namespace Ur20

open Spec Com
open scoped List

namespace Spec.Sys

/-- What holds of the transmit direction whatever is lost. -/
structure UInv (s : Sys) : Prop where
  init : s.p.initState = initStateOf s.cycles
  ack : s.ack < 4
  bytes : s.received ++ s.inFlight ++ s.queued <+ s.written
  pend : ∀ r, s.pending = some r →
    (r.txCnt = s.out.txCnt ∧ (r.data = s.out.data ∨ r.data = [])) ∨
    (s.out.txCnt ≠ (s.ack + 1) % 4 ∧ r.txCnt = (s.ack + 1) % 4)

theorem UInv.step {s : Sys} (h : s.UInv) (e : Ev) : (s.step e).UInv := by
  cases e with
  | write b =>
    refine ⟨h.init, h.ack, ?_, h.pend⟩
    show s.received ++ s.inFlight ++ (s.p.write b).1.outData.flatten <+ s.written ++ b
    rw [write_outData_flatten, ← List.append_assoc]
    exact h.bytes.append_right b
  | read n =>
    simp only [Sys.step, read_ok]
    exact ⟨h.init, h.ack, h.bytes, h.pend⟩
  | post seg =>
    simp only [Sys.step]
    split
    · exact ⟨h.init, h.ack, h.bytes, h.pend⟩
    · exact h
  | hide =>
    simp only [Sys.step]
    split
    · exact ⟨h.init, h.ack, h.bytes, h.pend⟩
    · exact h
  | restart n =>
    simp only [Sys.step]
    split
    · rename_i hg
      refine ⟨h.init, n.isLt, ?_, ?_⟩
      · have := h.bytes
        simp only [inFlight, hg.1, hg.2, queued, ite_self] at this ⊢
        exact this
      · intro r hr; rw [hg.1] at hr; simp at hr
    · exact h
  | take =>
    simp only [Sys.step]
    split
    · rename_i hg
      refine ⟨h.init, by show s.out.txCnt < 4; omega, ?_, ?_⟩
      · have := h.bytes
        simp only [inFlight, hg, if_true, queued] at this ⊢
        rw [if_neg (by omega)]
        simpa using this
      · intro r hr
        rcases h.pend r hr with h1 | ⟨h2, -⟩
        · exact .inl h1
        · exact absurd hg h2
    · exact h
  | finish =>
    simp only [Sys.step]
    split
    · rename_i r hr
      rcases h.pend r hr with ⟨h1, h2⟩ | ⟨h1, h2⟩
      · refine ⟨h.init, h.ack, ?_, by simp⟩
        have := h.bytes
        simp only [inFlight, hr, h1, queued, ne_eq, not_true_eq_false, if_false] at this ⊢
        rcases h2 with h2 | h2
        · rw [h2]; exact this
        · rw [h2]
          refine List.Sublist.trans ?_ this
          refine List.Sublist.append (List.Sublist.append (List.Sublist.refl _) ?_)
            (List.Sublist.refl _)
          simp
      · refine ⟨h.init, h.ack, ?_, by simp⟩
        have := h.bytes
        simp only [inFlight, hr, queued, h1, h2, if_false, if_true, ne_eq] at this ⊢
        rw [if_pos (by omega)] at this
        simpa using this
    · exact h
  | start nf rdy =>
    simp only [Sys.step]
    split
    · exact h
    · rename_i hp
      have hp : s.pending = none := by simpa using hp
      have hi := h.init
      have key : UInv { s with
          p := (s.p.next (s.input nf rdy) s.out).1
          pending := some (s.p.next (s.input nf rdy) s.out).2
          cycles := s.cycles + 1 } := by
        have hb := h.bytes
        simp only [inFlight, hp, queued, List.append_nil] at hb
        refine ⟨next_initState _ _ _ _ hi, h.ack, ?_, ?_⟩
        · simp only [inFlight, queued]
          match hc : s.cycles with
          | 0 =>
            rw [hc] at hi
            rw [next_clear _ _ _ hi]
            simpa using hb
          | 1 =>
            rw [hc] at hi
            rw [next_reset _ _ _ hi]
            simpa using hb
          | n + 2 =>
            rw [hc] at hi
            rw [next_done _ _ _ hi]
            simp only [(nextRx_frame _ _).1]
            by_cases hbusy : incCnt s.ack = s.out.txCnt
            · rw [nextTx_busy _ _ _ (by simpa [input] using hbusy)]
              simpa using hb
            · cases hq : s.p.outData with
              | nil =>
                rw [nextTx_nil _ _ _ hq, hq]
                simpa [hq] using hb
              | cons c cs =>
                rw [nextTx_send _ _ _ c cs hq (by simpa [input] using hbusy)]
                have hne : s.out.txCnt ≠ (s.ack + 1) % 4 := by
                  rw [← incCnt_eq _ h.ack]; exact fun h => hbusy h.symm
                simp only [input, incCnt_eq _ h.ack, if_neg hne]
                rw [if_pos (by simpa using fun h => hne h.symm)]
                simp only [if_neg hne, hq] at hb
                simpa using hb
        · intro r hr
          simp only [Option.some.injEq] at hr
          subst hr
          simp only
          match hc : s.cycles with
          | 0 =>
            rw [hc] at hi
            rw [next_clear _ _ _ hi]
            exact .inl ⟨rfl, .inr rfl⟩
          | 1 =>
            rw [hc] at hi
            rw [next_reset _ _ _ hi]
            exact .inl ⟨rfl, .inr rfl⟩
          | n + 2 =>
            rw [hc] at hi
            rw [next_done _ _ _ hi]
            by_cases hbusy : incCnt s.ack = s.out.txCnt
            · rw [nextTx_busy _ _ _ (by simpa [input] using hbusy)]
              exact .inl ⟨rfl, .inl rfl⟩
            · cases hq : s.p.outData with
              | nil =>
                rw [nextTx_nil _ _ _ hq]
                exact .inl ⟨rfl, .inl rfl⟩
              | cons c cs =>
                rw [nextTx_send _ _ _ c cs hq (by simpa [input] using hbusy)]
                rw [incCnt_eq _ h.ack] at hbusy
                exact .inr ⟨fun h => hbusy h.symm, incCnt_eq _ h.ack⟩
      split
      · exact ⟨key.init, key.ack, key.bytes, key.pend⟩
      · exact key

theorem UInv.drop {s : Sys} (h : s.UInv) :
    s.received ++ (if s.out.txCnt = (s.ack + 1) % 4 then s.out.data else []) ++ s.queued <+
      s.written := by
  refine List.Sublist.trans ?_ h.bytes
  unfold inFlight
  exact List.Sublist.append (List.Sublist.append (List.Sublist.refl _)
    (List.sublist_append_left _ _)) (List.Sublist.refl _)

theorem UInv.ustep {len : ProcessDataLength} {s : Sys} (h : s.UInv) (e : UEv) :
    (s.ustep len e).UInv := by
  cases e with
  | ev e => exact h.step e
  | lost =>
    refine ⟨h.init, h.ack, ?_, by simp [Sys.ustep]⟩
    have := h.drop
    simp only [queued] at this
    simp only [Sys.ustep, inFlight, queued, List.append_nil]
    exact this
  | crash =>
    refine ⟨rfl, h.ack, ?_, by simp [Sys.ustep]⟩
    refine List.Sublist.trans ?_ h.drop
    simp only [Sys.ustep, inFlight, queued, MessageProcessor.new, List.flatten_nil,
      List.append_nil]
    exact List.sublist_append_left _ _

theorem UInv.urun {len : ProcessDataLength} {s : Sys} (h : s.UInv) (evs : List UEv) :
    (s.urun len evs).UInv := by
  induction evs generalizing s with
  | nil => exact h
  | cons e evs ih => exact ih (h.ustep e)

theorem UInv.initial {len : ProcessDataLength} {s : Sys} (h : s.Initial len) : s.UInv := by
  have := TxInv.initial h
  exact ⟨this.init, this.ack, by rw [this.bytes], by simp [h.pending]⟩

theorem TxInv.lost {s : Sys} (h : s.TxInv) (hn : ¬ s.NewSegment) :
    ({ s with pending := none } : Sys).TxInv := by
  refine ⟨h.init, h.ack, ?_, h.data, by simp⟩
  have := h.bytes
  cases hp : s.pending with
  | none => simpa [inFlight, queued, hp] using this
  | some r =>
    have hr : r.txCnt = s.out.txCnt := by
      apply Classical.not_not.1
      exact fun h => hn ⟨r, hp, h⟩
    simpa [inFlight, queued, hp, hr] using this

theorem RxInv.lost {s : Sys} (h : s.RxInv) : ({ s with pending := none } : Sys).RxInv := by
  refine ⟨h.init, h.cnt, h.bytes, h.early, h.logged, ?_, by simp⟩
  intro hc hf
  rcases h.unlogged hc hf with h1 | ⟨h1, h2, h3, h4, -⟩
  · exact .inl h1
  · exact .inr ⟨h1, h2, h3, h4, by simp⟩

/-- The system with other logs of the receive direction. -/
def relog (s : Sys) (d n : List Byte) : Sys := { s with delivered := d, seen := n }

/-- Nothing depends on the logs, they only grow. -/
theorem relog_step (s : Sys) (e : Ev) : ∃ d' n', (s.step e).delivered = s.delivered ++ d' ∧
    (s.step e).seen = s.seen ++ n' ∧
    ∀ d n, (s.relog d n).step e = (s.step e).relog (d ++ d') (n ++ n') := by
  cases e with
  | write buf => exact ⟨[], [], by simp [step], by simp [step], fun d n => by simp [step, relog]⟩
  | read k =>
    simp only [step, relog]
    cases s.p.read k with
    | ok r => exact ⟨r.2, [], rfl, by simp, fun d n => by simp⟩
    | err e => exact ⟨[], [], by simp, by simp, fun d n => by simp⟩
    | panic => exact ⟨[], [], by simp, by simp, fun d n => by simp⟩
  | start nf rdy =>
    by_cases hp : s.pending.isSome
    · exact ⟨[], [], by simp [step, hp], by simp [step, hp], fun d n => by simp [step, relog, hp]⟩
    · by_cases hc : 2 < s.cycles + 1 ∧ s.avail = true ∧ s.fresh = true
      · exact ⟨[], s.rxData, by simp [step, hp, hc], by simp [step, hp, hc], fun d n => by
          simp [step, relog, hp, hc, input]⟩
      · exact ⟨[], [], by simp [step, hp, hc], by simp [step, hp, hc], fun d n => by
          simp [step, relog, hp, hc, input]⟩
  | finish =>
    refine ⟨[], [], ?_, ?_, fun d n => ?_⟩ <;> simp only [step, relog] <;> cases hp : s.pending <;>
      simp [hp]
  | take =>
    refine ⟨[], [], ?_, ?_, fun d n => ?_⟩ <;> simp only [step, relog] <;>
      by_cases hc : s.out.txCnt = (s.ack + 1) % 4 <;> simp [hc]
  | post seg =>
    refine ⟨[], [], ?_, ?_, fun d n => ?_⟩ <;> simp only [step, relog] <;>
      by_cases hc : s.out.rxCntAck = s.rxCnt <;> simp [hc]
  | hide =>
    refine ⟨[], [], ?_, ?_, fun d n => ?_⟩ <;> simp only [step, relog] <;>
      by_cases hc : s.out.rxCntAck = s.rxCnt <;> simp [hc]
  | restart k =>
    refine ⟨[], [], ?_, ?_, fun d n => ?_⟩ <;> simp only [step, relog] <;>
      by_cases hc : s.pending = none ∧ s.out.data = [] <;> simp [hc]

theorem relog_urun {len : ProcessDataLength} (s : Sys) (evs : List UEv) :
    ∃ d' n', (s.urun len evs).delivered = s.delivered ++ d' ∧
      (s.urun len evs).seen = s.seen ++ n' ∧
      ∀ d n, (s.relog d n).urun len evs = (s.urun len evs).relog (d ++ d') (n ++ n') := by
  induction evs generalizing s with
  | nil => exact ⟨[], [], by simp [urun], by simp [urun], fun d n => by simp [urun]⟩
  | cons e evs ih =>
    obtain ⟨d1, n1, h1, h2, h3⟩ : ∃ d' n', (s.ustep len e).delivered = s.delivered ++ d' ∧
        (s.ustep len e).seen = s.seen ++ n' ∧
        ∀ d n, (s.relog d n).ustep len e = (s.ustep len e).relog (d ++ d') (n ++ n') := by
      cases e with
      | ev e => exact relog_step s e
      | lost => exact ⟨[], [], by simp [Sys.ustep], by simp [Sys.ustep], fun d n => by
          simp [Sys.ustep, relog]⟩
      | crash => exact ⟨[], [], by simp [Sys.ustep], by simp [Sys.ustep], fun d n => by
          simp [Sys.ustep, relog]⟩
    obtain ⟨d2, n2, g1, g2, g3⟩ := ih (s.ustep len e)
    simp only [urun, List.foldl_cons] at g1 g2 g3 ⊢
    refine ⟨d1 ++ d2, n1 ++ n2, by rw [g1, h1, List.append_assoc], by rw [g2, h2, List.append_assoc],
      fun d n => ?_⟩
    rw [h3, g3, List.append_assoc, List.append_assoc]

/-- A new processor. -/
theorem RxInv.crashed {len : ProcessDataLength} {s : Sys} (h : s.rxCnt < 4) :
    ((s.ustep len .crash).relog [] []).RxInv where
  init := rfl
  cnt := h
  bytes := rfl
  early := fun _ => rfl
  logged := fun h => (by cases h)
  unlogged := fun h => absurd h (by simp [Sys.ustep, relog])
  pend := fun r h => (by cases h)

/-- The state since the last crash: the logs up to then, and what they have grown by. -/
structure RxSince (s : Sys) : Prop where
  since : ∃ d0 n0 d n, s.delivered = d0 ++ d ∧ s.seen = n0 ++ n ∧ d0 <+ n0 ∧ (s.relog d n).RxInv

theorem RxSince.initial {len : ProcessDataLength} {s : Sys} (h : s.Initial len) : s.RxSince :=
  ⟨[], [], s.delivered, s.seen, rfl, rfl, .refl _, RxInv.initial h⟩

theorem RxSince.ustep {len : ProcessDataLength} {s : Sys} (h : s.RxSince) (e : UEv) :
    (s.ustep len e).RxSince := by
  obtain ⟨d0, n0, d, n, h1, h2, h3, h4⟩ := h
  cases e with
  | ev e =>
    obtain ⟨d', n', k1, k2, k3⟩ := relog_step s e
    refine ⟨d0, n0, d ++ d', n ++ n', ?_, ?_, h3, ?_⟩
    · show (s.step e).delivered = _
      rw [k1, h1, List.append_assoc]
    · show (s.step e).seen = _
      rw [k2, h2, List.append_assoc]
    · show ((s.step e).relog _ _).RxInv
      rw [← k3]
      exact h4.step e
  | lost => exact ⟨d0, n0, d, n, h1, h2, h3, h4.lost⟩
  | crash =>
    refine ⟨d0 ++ d, n0 ++ n, [], [], by simpa [Sys.ustep] using h1,
      by simpa [Sys.ustep] using h2, ?_, ?_⟩
    · have := h4.bytes
      exact h3.append (by
        rw [show n = d ++ s.p.inData from this.symm]; exact List.sublist_append_left _ _)
    · exact .crashed h4.cnt

theorem RxSince.urun {len : ProcessDataLength} {s : Sys} (h : s.RxSince) (evs : List UEv) :
    (s.urun len evs).RxSince := by
  induction evs generalizing s with
  | nil => exact h
  | cons e evs ih => exact ih (h.ustep e)

end Spec.Sys

/-! ### C83: lost transfers -/

/-- C83: even if images are lost on the way to the device it takes over a prefix of the bytes
written. -/
def C83_statement : Prop :=
  ∀ (len : ProcessDataLength) (s : Sys), s.Initial len → ∀ evs : List UEv, NoCrash evs →
    (s.urun len evs).received <+: (s.urun len evs).written

theorem exSys_ready : exSys.Initial .EightBytes :=
  ⟨rfl, rfl, rfl, rfl, by decide, by decide, by decide⟩

/-- C83 is false: a lost image can take a segment with it. -/
theorem C83_statement_false : ¬ C83_statement := by
  intro h
  have := h .EightBytes exSys exSys_ready
    [.ev (.start false true), .ev .finish, .ev (.start false true), .ev .finish, .ev .take,
     .ev (.write [1, 2, 3, 4, 5, 6, 7]), .ev (.start false true), .lost,
     .ev (.start false true), .ev .finish, .ev .take] (by
      intro e he
      simp only [List.mem_cons, List.not_mem_nil, or_false] at he
      rintro rfl
      simp at he)
  revert this
  decide

/-- C83: whatever images are lost, the device takes over bytes that were written, each at most once
and in the order they were written; together with those in flight and those still queued. -/
theorem C83_order_partial {len : ProcessDataLength} {s : Sys} (h : s.Initial len)
    (evs : List UEv) :
    (s.urun len evs).received ++ (s.urun len evs).inFlight ++ (s.urun len evs).queued <+
      (s.urun len evs).written :=
  ((Sys.UInv.initial h).urun evs).bytes

/-- C83: as long as no lost image carries a new segment nothing is lost at all. -/
theorem C83_harmless_partial {len : ProcessDataLength} {s : Sys} (h : s.Initial len)
    (evs : List UEv) (hh : s.Harmless len evs) :
    (s.urun len evs).received ++ (s.urun len evs).inFlight ++ (s.urun len evs).queued =
      (s.urun len evs).written := by
  suffices ∀ (evs : List UEv) (s : Sys), s.TxInv → s.Harmless len evs → (s.urun len evs).TxInv from
    (this evs s (.initial h) hh).bytes
  intro evs
  induction evs with
  | nil => exact fun s h _ => h
  | cons e evs ih =>
    intro s h hh
    cases e with
    | ev e => exact ih _ (h.step e) hh
    | lost => exact ih _ (h.lost hh.1) hh.2
    | crash => exact hh.elim

/-- C83: what is read is not affected: the bytes handed to the user and those read ahead are exactly
those the device presented to a cycle, each once and in order. -/
theorem C83_receive_partial {len : ProcessDataLength} {s : Sys} (h : s.Initial len)
    (evs : List UEv) (hc : NoCrash evs) :
    (s.urun len evs).delivered ++ (s.urun len evs).p.inData = (s.urun len evs).seen := by
  suffices ∀ (evs : List UEv) (s : Sys), s.RxInv → NoCrash evs → (s.urun len evs).RxInv from
    (this evs s (.initial h) hc).bytes
  intro evs
  induction evs with
  | nil => exact fun s h _ => h
  | cons e evs ih =>
    intro s h hc
    have hc' : NoCrash evs := fun e he => hc e (List.mem_cons_of_mem _ he)
    cases e with
    | ev e => exact ih _ (h.step e) hc'
    | lost => exact ih _ h.lost hc'
    | crash => exact absurd rfl (hc _ List.mem_cons_self)

/-- Rounds deliver what is in the image and queued. -/
theorem Spec.Sys.recovers {t : Sys} (hi : t.p.initState = initStateOf t.cycles) (ha : t.ack < 4)
    (hp : t.pending = none) (hc : 2 ≤ t.cycles) (k : Nat) (hk : 1 + t.p.outData.length ≤ k) :
    (rounds k t).received = t.received ++ t.inFlight ++ t.queued := by
  obtain ⟨n, hn⟩ : ∃ n, t.cycles = n + 2 := ⟨t.cycles - 2, by omega⟩
  obtain ⟨c1, -⟩ := C26_rounds k t (by rw [hi, hn]; rfl) hp ha
  rw [c1, List.take_of_length_le]
  · simp only [Sys.inFlight, hp, Sys.queued, List.append_nil]
    unfold outstanding
    rw [List.flatten_append, List.append_assoc]
    congr 2
    split <;> simp
  · unfold outstanding
    rw [List.length_append]
    split <;> simp_all
    omega

theorem Spec.Sys.UInv.recovers {t : Sys} (hi : t.UInv) (hp : t.pending = none) (hc : 2 ≤ t.cycles)
    (k : Nat) (hk : 1 + t.p.outData.length ≤ k) :
    (rounds k t).received = t.received ++ t.inFlight ++ t.queued :=
  Spec.Sys.recovers hi.init hi.ack hp hc k hk

/-- C83: after any losses the transmission goes on: once the processor is initialised, `k` rounds of
a complete cycle followed by a look of the device deliver everything that was in the image or
queued. -/
theorem C83_recovers_partial {len : ProcessDataLength} {s : Sys} (h : s.Initial len)
    (evs : List UEv) (hp : (s.urun len evs).pending = none) (hc : 2 ≤ (s.urun len evs).cycles)
    (k : Nat) (hk : 1 + (s.urun len evs).p.outData.length ≤ k) :
    (rounds k (s.urun len evs)).received =
      (s.urun len evs).received ++ (s.urun len evs).inFlight ++ (s.urun len evs).queued :=
  ((Sys.UInv.initial h).urun (len := len) evs).recovers hp hc k hk

/-! ### C84: crashes of the application -/

/-- C84: wherever the application crashes and starts again, and whatever images are lost, no byte
written reaches the device twice or out of order. -/
theorem C84_crash {len : ProcessDataLength} {s : Sys} (h : s.Initial len) (evs : List UEv) :
    (s.urun len evs).received <+ (s.urun len evs).written := by
  have := C83_order_partial h evs
  exact (List.sublist_append_left _ _).trans
    ((by rw [← List.append_assoc] : _ <+ _).trans this)

/-- A round of the initialisation clears the segment in the image. -/
theorem round_init {s : Sys} (h : s.UInv) (hp : s.pending = none) (hc : s.cycles < 2) :
    s.round.received = s.received ∧ s.round.p.outData = s.p.outData ∧ s.round.out.data = [] ∧
      s.round.pending = none ∧ s.round.cycles = s.cycles + 1 := by
  obtain ⟨t, ht, h1, h2, h3, h4, h5, h6, -⟩ := cycle_facts s hp
  have hround : s.round = t.step .take := by rw [← ht]; rfl
  have hi := h.init
  have key : (s.p.next (s.input false true) s.out).1.outData = s.p.outData ∧
      (s.p.next (s.input false true) s.out).2.data = [] := by
    match hcy : s.cycles with
    | 0 =>
      rw [hcy] at hi
      rw [next_clear _ _ _ hi]
      exact ⟨rfl, rfl⟩
    | 1 =>
      rw [hcy] at hi
      rw [next_reset _ _ _ hi]
      exact ⟨rfl, rfl⟩
    | n + 2 => omega
  rw [← h1, ← h2] at key
  rw [hround]
  simp only [Sys.step]
  split
  · refine ⟨?_, key.1, key.2, h3, h6⟩
    show t.received ++ t.out.data = _
    rw [key.2, List.append_nil, h5]
  · exact ⟨h5, key.1, key.2, h3, h6⟩

/-- C84: after a crash the transmission starts over with what is written then: two rounds for the
initialisation, one for the image and one per segment deliver exactly that, after what the device had
taken over before the crash. -/
theorem C84_after_crash {len : ProcessDataLength} {s : Sys} (h : s.Initial len) (evs : List UEv)
    (w : List Byte) (k : Nat)
    (hk : 3 + (((s.urun len evs).urun len [.crash, .ev (.write w)]).p.outData.length) ≤ k) :
    (rounds k ((s.urun len evs).urun len [.crash, .ev (.write w)])).received =
      (s.urun len evs).received ++ w := by
  have hi := ((Sys.UInv.initial h).urun (len := len) evs).urun (len := len)
    [.crash, .ev (.write w)]
  have hp : ((s.urun len evs).urun len [.crash, .ev (.write w)]).pending = none := rfl
  have hc : ((s.urun len evs).urun len [.crash, .ev (.write w)]).cycles = 0 := rfl
  have hr : ((s.urun len evs).urun len [.crash, .ev (.write w)]).received =
    (s.urun len evs).received := rfl
  have hw : ((s.urun len evs).urun len [.crash, .ev (.write w)]).p.outData.flatten = w := by
    show (((MessageProcessor.new len).write w).1).outData.flatten = w
    rw [write_outData_flatten]; rfl
  generalize (s.urun len evs).urun len [.crash, .ev (.write w)] = t at *
  rw [← hr, ← hw]
  obtain ⟨a1, a2, a3, a4, a5⟩ := round_init hi hp (by omega)
  have ai : t.round.UInv := ((hi.step (.start false true)).step .finish).step .take
  obtain ⟨b1, b2, b3, b4, b5⟩ := round_init ai a4 (by omega)
  have bi : t.round.round.UInv := ((ai.step (.start false true)).step .finish).step .take
  obtain ⟨j, rfl⟩ : ∃ j, k = j + 2 := ⟨k - 2, by omega⟩
  have hr : rounds (j + 2) t = rounds j t.round.round := rfl
  obtain ⟨c1, -⟩ := C26_rounds j _ (by rw [bi.init, b5, a5, hc]; rfl) b4 bi.ack
  rw [hr, c1, List.take_of_length_le, b1, a1]
  · congr 1
    unfold outstanding
    rw [b3, b2, a2]
    split <;> simp
  · unfold outstanding
    rw [List.length_append, b2, a2]
    have : (if t.round.round.out.txCnt = (t.round.round.ack + 1) % 4 then
        [t.round.round.out.data] else []).length ≤ 1 := by split <;> simp
    omega

/-- A schedule with a loss and a crash: the lost segment and what was queued at the crash are
missing, the rest arrives in order. -/
def exLosses : List UEv :=
  [.ev (.start false true), .ev .finish, .ev (.start false true), .ev .finish, .ev .take,
   .ev (.write [1#8, 2#8, 3#8, 4#8, 5#8, 6#8, 7#8]), .ev (.start false true), .lost,
   .ev (.start false true), .ev .finish, .ev .take,
   .ev (.write [8#8, 9#8]), .ev (.start false true), .crash, .ev (.write [10#8]),
   .ev (.start false true), .ev .finish, .ev (.start false true), .ev .finish,
   .ev (.start false true), .ev .finish, .ev .take]

example : (exSys.urun .EightBytes exLosses).received = [7#8, 10#8] := by decide

/-- A harmless schedule in which images are lost. -/
example : exSys.Harmless .EightBytes
    [.ev (.start false true), .lost, .ev (.start false true), .ev .finish, .ev .take,
     .ev (.write [1#8]), .ev (.start false true), .ev .finish, .ev (.start false true), .lost] := by
  simp only [Sys.Harmless, Sys.NewSegment, and_true]
  refine ⟨?_, ?_⟩ <;> rintro ⟨r, hr, hn⟩ <;> revert hn <;> cases hr <;> decide

/-- After a crash, with a segment of the old life still in the image. -/
example : (rounds 5 (((exSys.urun .EightBytes
    [.ev (.start false true), .ev .finish, .ev (.start false true), .ev .finish, .ev .take,
     .ev (.write [1#8]), .ev (.start false true), .ev .finish])).urun .EightBytes
       [.crash, .ev (.write [2#8])])).received = [2#8] := by decide

end Ur20
