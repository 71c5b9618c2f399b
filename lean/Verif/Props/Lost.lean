import Verif.Spec.Lost
import Verif.Props.Station

/-!
# Exactly which bytes are lost on the way to a serial device: C141
-/

namespace Ur20

open Spec Com
open scoped List

namespace Spec

theorem Pieces.all_append (a b : Pieces) : Pieces.all (a ++ b) = Pieces.all a ++ Pieces.all b := by
  simp [Pieces.all]

theorem Pieces.kept_append (a b : Pieces) :
    Pieces.kept (a ++ b) = Pieces.kept a ++ Pieces.kept b := by
  simp [Pieces.kept]

theorem Pieces.gone_append (a b : Pieces) :
    Pieces.gone (a ++ b) = Pieces.gone a ++ Pieces.gone b := by
  simp [Pieces.gone]

/-- Pieces that are all lost. -/
def lostPieces (m : List (List Byte)) : Pieces := m.map (·, false)

theorem lostPieces_all (m : List (List Byte)) : Pieces.all (lostPieces m) = m.flatten := by
  simp [Pieces.all, lostPieces, Function.comp_def]

theorem lostPieces_kept (m : List (List Byte)) : Pieces.kept (lostPieces m) = [] := by
  simp [Pieces.kept, lostPieces]

theorem lostPieces_gone (m : List (List Byte)) : Pieces.gone (lostPieces m) = m := by
  simp [Pieces.gone, lostPieces, Function.comp_def, List.filter_map]

namespace Sys

/-- What was taken over or lost so far (`l`), and what was lost behind the segment in flight (`m`). -/
def Fates (s : Sys) (lost : List (List Byte)) : Prop :=
  ∃ (l : Pieces) (m : List (List Byte)), s.written = l.all ++ s.inFlight ++ m.flatten ++ s.queued ∧
    s.received = l.kept ∧ l.gone ++ m ~ lost

/-- With nothing in flight everything is decided. -/
theorem Fates.settle {s : Sys} {lost : List (List Byte)} (h : s.Fates lost) (hi : s.inFlight = []) :
    ∃ l : Pieces, s.written = l.all ++ s.queued ∧ s.received = l.kept ∧ l.gone ~ lost := by
  obtain ⟨l, m, h1, h2, h3⟩ := h
  refine ⟨l ++ lostPieces m, ?_, ?_, ?_⟩
  · rw [h1, hi, Pieces.all_append, lostPieces_all]; simp
  · rw [h2, Pieces.kept_append, lostPieces_kept]; simp
  · rw [Pieces.gone_append, lostPieces_gone]; exact h3

theorem Fates.of_same {s t : Sys} {lost : List (List Byte)} (h : s.Fates lost)
    (h1 : t.written = s.written) (h2 : t.inFlight = s.inFlight) (h3 : t.queued = s.queued)
    (h4 : t.received = s.received) : t.Fates lost := by
  obtain ⟨l, m, g1, g2, g3⟩ := h
  exact ⟨l, m, by rw [h1, h2, h3]; exact g1, by rw [h4]; exact g2, g3⟩

theorem inFlight_pending_none {s : Sys} (h : s.pending = none) :
    s.inFlight = if s.out.txCnt = (s.ack + 1) % 4 then s.out.data else [] := by
  simp [inFlight, h]

/-- A new segment is the only one in flight. -/
theorem UInv.inFlight_new {s : Sys} (h : s.UInv) {r : RsOut} (hr : s.pending = some r)
    (hn : r.txCnt ≠ s.out.txCnt) : s.inFlight = r.data ∧ s.out.txCnt ≠ (s.ack + 1) % 4 := by
  rcases h.pend r hr with ⟨h1, -⟩ | ⟨h1, h2⟩
  · exact absurd h1 hn
  · exact ⟨by simp [inFlight, hr, h1, hn], h1⟩

theorem Fates.drop {s : Sys} (hu : s.UInv) {lost : List (List Byte)} (h : s.Fates lost) :
    ({ s with pending := none } : Sys).Fates (lost ++ s.newSegment) := by
  cases hp : s.pending with
  | none =>
    simp only [newSegment, hp, List.append_nil]
    exact h.of_same rfl (by simp [inFlight, hp]) rfl rfl
  | some r =>
    by_cases hn : r.txCnt = s.out.txCnt
    · simp only [newSegment, hp, hn, ne_eq, not_true_eq_false, if_false, List.append_nil]
      exact h.of_same rfl (by simp [inFlight, hp, hn]) rfl rfl
    · obtain ⟨h1, h2⟩ := hu.inFlight_new hp hn
      simp only [newSegment, hp, ne_eq, hn, not_false_eq_true, if_true]
      obtain ⟨l, m, g1, g2, g3⟩ := h
      refine ⟨l, r.data :: m, ?_, g2, ?_⟩
      · show s.written = _
        rw [g1, h1]
        simp [inFlight, h2, queued]
      · refine List.Perm.trans ?_ (g3.append_right _)
        rw [List.append_assoc]
        exact (List.perm_append_comm (l₁ := [r.data]) (l₂ := m)).append_left _

theorem Fates.step {s : Sys} (hu : s.UInv) {lost : List (List Byte)} (h : s.Fates lost) (e : Ev) :
    (s.step e).Fates (lost ++ s.lostIn (.ev e)) := by
  cases e with
  | write b =>
    simp only [lostIn, List.append_nil]
    obtain ⟨l, m, g1, g2, g3⟩ := h
    refine ⟨l, m, ?_, g2, g3⟩
    show s.written ++ b = l.all ++ s.inFlight ++ m.flatten ++ (s.p.write b).1.outData.flatten
    rw [write_outData_flatten, g1]
    simp [queued]
  | read n =>
    simp only [lostIn, List.append_nil]
    simp only [Sys.step, read_ok]
    exact h.of_same rfl rfl rfl rfl
  | post seg =>
    simp only [lostIn, List.append_nil, Sys.step]
    split
    · exact h.of_same rfl rfl rfl rfl
    · exact h
  | hide =>
    simp only [lostIn, List.append_nil, Sys.step]
    split
    · exact h.of_same rfl rfl rfl rfl
    · exact h
  | restart n =>
    simp only [lostIn, List.append_nil, Sys.step]
    split
    · rename_i hg
      exact h.of_same rfl (by simp [inFlight, hg.1, hg.2]) rfl rfl
    · exact h
  | take =>
    simp only [lostIn, List.append_nil, Sys.step]
    split
    · rename_i hg
      have hi : s.inFlight = s.out.data := by
        cases hp : s.pending with
        | none => simp [inFlight, hp, hg]
        | some r =>
          by_cases hn : r.txCnt = s.out.txCnt
          · simp [inFlight, hp, hn, hg]
          · exact absurd hg (hu.inFlight_new hp hn).2
      obtain ⟨l, m, g1, g2, g3⟩ := h
      refine ⟨l ++ [(s.out.data, true)] ++ lostPieces m, [], ?_, ?_, ?_⟩
      · have hz : ({ s with ack := s.out.txCnt, received := s.received ++ s.out.data } : Sys).inFlight =
            [] := by
          have : s.out.txCnt ≠ (s.out.txCnt + 1) % 4 := by omega
          cases hp : s.pending with
          | none => simp [inFlight, this]
          | some r =>
            by_cases hn : r.txCnt = s.out.txCnt
            · simp [inFlight, hn, this]
            · exact absurd hg (hu.inFlight_new hp hn).2
        rw [hz]
        show s.written = _ ++ s.queued
        rw [g1, hi, Pieces.all_append, Pieces.all_append, lostPieces_all]
        simp [Pieces.all]
      · show s.received ++ s.out.data = _
        rw [g2, Pieces.kept_append, Pieces.kept_append, lostPieces_kept]
        simp [Pieces.kept]
      · rw [Pieces.gone_append, Pieces.gone_append, lostPieces_gone]
        simpa [Pieces.gone] using g3
    · exact h
  | finish =>
    simp only [Sys.step, lostIn]
    cases hp : s.pending with
    | none => simpa using h
    | some r =>
      simp only
      rcases hu.pend r hp with ⟨h1, h2⟩ | ⟨h1, h2⟩
      · by_cases hl : s.out.txCnt = (s.ack + 1) % 4 ∧ r.txCnt = s.out.txCnt ∧ r.data ≠ s.out.data
        · rw [if_pos hl]
          have hd : r.data = [] := by
            rcases h2 with h2 | h2
            · exact absurd h2 hl.2.2
            · exact h2
          obtain ⟨l, m, g1, g2, g3⟩ := h
          refine ⟨l ++ [(s.out.data, false)], m, ?_, ?_, ?_⟩
          · show s.written = _
            rw [g1]
            simp [inFlight, hp, h1, hl.1, hd, queued, Pieces.all]
          · show s.received = _
            rw [g2]
            simp [Pieces.kept]
          · rw [Pieces.gone_append]
            simp only [Pieces.gone, List.filter, Bool.not_false, List.map_cons, List.map_nil,
              List.append_assoc]
            simp only [Pieces.gone] at g3
            refine List.Perm.trans ?_ (g3.append_right _)
            rw [List.append_assoc]
            exact List.perm_append_comm.append_left _
        · rw [if_neg hl, List.append_nil]
          refine h.of_same rfl ?_ rfl rfl
          by_cases ht : s.out.txCnt = (s.ack + 1) % 4
          · have hd : r.data = s.out.data := by
              by_contra hd
              exact hl ⟨ht, h1, hd⟩
            simp [inFlight, hp, h1, ht, hd]
          · simp [inFlight, hp, h1, ht]
      · rw [if_neg (fun hl => h1 hl.1), List.append_nil]
        refine h.of_same rfl ?_ rfl rfl
        simp [inFlight, hp, h2, h1, Ne.symm h1]
  | start nf rdy =>
    simp only [lostIn, List.append_nil, Sys.step]
    split
    · exact h
    · rename_i hp
      have hp : s.pending = none := by simpa using hp
      have hi := hu.init
      have key : Fates { s with
          p := (s.p.next (s.input nf rdy) s.out).1
          pending := some (s.p.next (s.input nf rdy) s.out).2
          cycles := s.cycles + 1 } lost := by
        have same : ∀ (q : MessageProcessor) (r : RsOut) (n : Nat), q.outData = s.p.outData →
            r.txCnt = s.out.txCnt →
            Fates { s with p := q, pending := some r, cycles := n } lost := fun q r n hq hr =>
          h.of_same rfl (by simp [inFlight, hp, hr]) (by simp [queued, hq]) rfl
        match hc : s.cycles with
        | 0 =>
          rw [hc] at hi
          rw [next_clear _ _ _ hi]
          exact same _ _ _ rfl rfl
        | 1 =>
          rw [hc] at hi
          rw [next_reset _ _ _ hi]
          exact same _ _ _ rfl rfl
        | n + 2 =>
          rw [hc] at hi
          rw [next_done _ _ _ hi]
          by_cases hbusy : incCnt s.ack = s.out.txCnt
          · rw [nextTx_busy _ _ _ (by simpa [input] using hbusy)]
            exact same _ _ _ (nextRx_frame _ _).1 rfl
          · cases hq : s.p.outData with
            | nil =>
              rw [nextTx_nil _ _ _ hq]
              exact same _ _ _ (nextRx_frame _ _).1 rfl
            | cons c cs =>
              rw [nextTx_send _ _ _ c cs hq (by simpa [input] using hbusy)]
              have hne : s.out.txCnt ≠ (s.ack + 1) % 4 := by
                rw [← incCnt_eq _ hu.ack]; exact fun h => hbusy h.symm
              obtain ⟨l, g1, g2, g3⟩ := h.settle (by simp [inFlight, hp, hne])
              refine ⟨l, [], ?_, g2, by simpa using g3⟩
              show s.written = _
              rw [g1]
              simp [inFlight, input, incCnt_eq _ hu.ack, hne, Ne.symm hne, queued,
                (nextRx_frame _ _).1, hq]
      split
      · exact key.of_same rfl rfl rfl rfl
      · exact key

theorem Fates.ustep {len : ProcessDataLength} {s : Sys} (hu : s.UInv) {lost : List (List Byte)}
    (h : s.Fates lost) (e : UEv) : (s.ustep len e).Fates (lost ++ s.lostIn e) := by
  cases e with
  | ev e => exact h.step hu e
  | lost => exact h.drop hu
  | crash =>
    obtain ⟨l, m, g1, g2, g3⟩ := h.drop hu
    refine ⟨l, m ++ s.p.outData, ?_, g2, ?_⟩
    · show s.written = _
      rw [show s.written = _ from g1]
      simp [Sys.ustep, inFlight, queued, MessageProcessor.new]
      rfl
    · simp only [lostIn]
      rw [← List.append_assoc, ← List.append_assoc]
      exact g3.append_right _

theorem Fates.urun {len : ProcessDataLength} {s : Sys} (hu : s.UInv) {lost : List (List Byte)}
    (h : s.Fates lost) (evs : List UEv) :
    (s.urun len evs).Fates (lost ++ lostSegments len s evs) := by
  induction evs generalizing s lost with
  | nil => simpa [Sys.urun, lostSegments] using h
  | cons e evs ih =>
    have := ih (hu.ustep (len := len) e) (h.ustep (len := len) hu e)
    rw [List.append_assoc] at this
    exact this

theorem Fates.initial {len : ProcessDataLength} {s : Sys} (h : s.Initial len) : s.Fates [] := by
  refine ⟨[], [], ?_, h.logs.2.1, by simp [Pieces.gone]⟩
  simp [Pieces.all, h.logs.1, inFlight, h.data, h.pending, queued, h.p, MessageProcessor.new]

/-- What was written, divided. -/
theorem Fates.pieces {s : Sys} {lost : List (List Byte)} (h : s.Fates lost) :
    ∃ l : Pieces, l.all = s.written ∧ l.kept = s.received ++ s.inFlight ++ s.queued ∧
      l.gone ~ lost := by
  obtain ⟨l, m, g1, g2, g3⟩ := h
  refine ⟨l ++ [(s.inFlight, true)] ++ lostPieces m ++ [(s.queued, true)], ?_, ?_, ?_⟩
  · rw [g1, Pieces.all_append, Pieces.all_append, Pieces.all_append, lostPieces_all]
    simp [Pieces.all]
  · rw [g2, Pieces.kept_append, Pieces.kept_append, Pieces.kept_append, lostPieces_kept]
    simp [Pieces.kept]
  · rw [Pieces.gone_append, Pieces.gone_append, Pieces.gone_append, lostPieces_gone]
    simpa [Pieces.gone] using g3

/-! ### Without crashes only lost images lose segments -/

/-- The invariant of the reliable system, up to the record of what was written. -/
def Orderly (s : Sys) : Prop := ∃ w, ({ s with written := w } : Sys).TxInv

theorem rewritten_step (s : Sys) (w : List Byte) (e : Ev) :
    ∃ w', ({ s with written := w } : Sys).step e = { s.step e with written := w' } := by
  cases e with
  | write b => exact ⟨w ++ b, rfl⟩
  | read n => exact ⟨w, by simp [Sys.step, read_ok]⟩
  | post seg => exact ⟨w, by simp only [Sys.step]; split <;> rfl⟩
  | hide => exact ⟨w, by simp only [Sys.step]; split <;> rfl⟩
  | restart n => exact ⟨w, by simp only [Sys.step]; split <;> rfl⟩
  | take => exact ⟨w, by simp only [Sys.step]; split <;> rfl⟩
  | finish => exact ⟨w, by simp only [Sys.step]; split <;> rfl⟩
  | start nf rdy =>
    refine ⟨w, ?_⟩
    simp only [Sys.step, input]
    split
    · rfl
    · split <;> rfl

theorem Orderly.step {s : Sys} (h : s.Orderly) (e : Ev) : (s.step e).Orderly := by
  obtain ⟨w, h⟩ := h
  obtain ⟨w', hw⟩ := rewritten_step s w e
  exact ⟨w', hw ▸ h.step e⟩

theorem Orderly.ustep {len : ProcessDataLength} {s : Sys} (h : s.Orderly) {e : UEv}
    (he : e ≠ .crash) : (s.ustep len e).Orderly := by
  cases e with
  | ev e => exact h.step e
  | lost =>
    obtain ⟨w, h⟩ := h
    exact ⟨({ s with pending := none } : Sys).received ++ ({ s with pending := none } : Sys).inFlight
      ++ ({ s with pending := none } : Sys).queued, h.init, h.ack, rfl, h.data,
      fun r hr => by cases hr⟩
  | crash => exact absurd rfl he

theorem Orderly.initial {len : ProcessDataLength} {s : Sys} (h : s.Initial len) : s.Orderly :=
  ⟨s.written, TxInv.initial h⟩

theorem Orderly.lostIn {s : Sys} (h : s.Orderly) (e : Ev) : s.lostIn (.ev e) = [] := by
  obtain ⟨w, h⟩ := h
  cases e with
  | finish =>
    simp only [Sys.lostIn]
    cases hp : s.pending with
    | none => rfl
    | some r =>
      simp only
      rw [if_neg]
      rintro ⟨h1, h2, h3⟩
      rcases h.pend r hp with ⟨-, h4⟩ | ⟨-, h4, -⟩
      · exact h3 h4
      · exact h4 h1
  | _ => rfl

theorem newSegment_length (s : Sys) : s.newSegment.length ≤ 1 := by
  unfold newSegment
  split
  · split <;> simp
  · simp

theorem lostSegments_length {len : ProcessDataLength} {s : Sys} (h : s.Orderly) (evs : List UEv)
    (hc : NoCrash evs) : (lostSegments len s evs).length ≤ lostImages evs := by
  induction evs generalizing s with
  | nil => simp [lostSegments]
  | cons e evs ih =>
    have ih := ih (h.ustep (len := len) (hc e List.mem_cons_self))
      (fun x hx => hc x (List.mem_cons_of_mem _ hx))
    cases e with
    | ev e =>
      simp only [lostSegments, h.lostIn e, List.nil_append, lostImages]
      exact ih
    | lost =>
      have := s.newSegment_length
      simp only [lostSegments, lostImages, List.length_append, Sys.lostIn]
      omega
    | crash => exact absurd rfl (hc _ List.mem_cons_self)

/-! ### The size of lost segments -/

/-- Every segment in the queue or in an image fits into a frame, and new ones are not empty. -/
structure Fits (len : ProcessDataLength) (s : Sys) : Prop where
  queue : QueueOk len s.p
  out : s.out.data.length ≤ len.userDataLen
  pend : ∀ r, s.pending = some r → r.data.length ≤ len.userDataLen ∧
    (r.txCnt ≠ s.out.txCnt → r.data ≠ [])

theorem Fits.initial {len : ProcessDataLength} {s : Sys} (h : s.Initial len) : s.Fits len :=
  ⟨by rw [h.p]; exact QueueOk.new len, by rw [h.data]; simp, by rw [h.pending]; simp⟩

theorem Fits.step {len : ProcessDataLength} {s : Sys} (hu : s.UInv) (h : s.Fits len) (e : Ev) :
    (s.step e).Fits len := by
  cases e with
  | write b => exact ⟨h.queue.write b, h.out, h.pend⟩
  | read n =>
    simp only [Sys.step, read_ok]
    exact ⟨⟨h.queue.1, h.queue.2⟩, h.out, h.pend⟩
  | post seg => simp only [Sys.step]; split <;> exact ⟨h.queue, h.out, h.pend⟩
  | hide => simp only [Sys.step]; split <;> exact ⟨h.queue, h.out, h.pend⟩
  | restart n => simp only [Sys.step]; split <;> exact ⟨h.queue, h.out, h.pend⟩
  | take => simp only [Sys.step]; split <;> exact ⟨h.queue, h.out, h.pend⟩
  | finish =>
    simp only [Sys.step]
    split
    · rename_i r hr
      exact ⟨h.queue, (h.pend r hr).1, by simp⟩
    · exact h
  | start nf rdy =>
    simp only [Sys.step]
    split
    · exact h
    · have hi := hu.init
      have key : ((s.p.next (s.input nf rdy) s.out).2.data.length ≤ len.userDataLen ∧
          ((s.p.next (s.input nf rdy) s.out).2.txCnt ≠ s.out.txCnt →
            (s.p.next (s.input nf rdy) s.out).2.data ≠ [])) := by
        match hc : s.cycles with
        | 0 =>
          rw [hc] at hi
          rw [next_clear _ _ _ hi]
          simp
        | 1 =>
          rw [hc] at hi
          rw [next_reset _ _ _ hi]
          simp
        | n + 2 =>
          rw [hc] at hi
          rw [next_done _ _ _ hi]
          by_cases hbusy : incCnt s.ack = s.out.txCnt
          · rw [nextTx_busy _ _ _ (by simpa [input] using hbusy)]
            exact ⟨h.out, fun h => absurd rfl h⟩
          · cases hq : s.p.outData with
            | nil =>
              rw [nextTx_nil _ _ _ hq]
              exact ⟨h.out, fun h => absurd rfl h⟩
            | cons c cs =>
              rw [nextTx_send _ _ _ c cs hq (by simpa [input] using hbusy)]
              have := h.queue.2 c (by rw [hq]; simp)
              exact ⟨this.2, fun _ => List.ne_nil_of_length_pos this.1⟩
      have key' : Fits len { s with
          p := (s.p.next (s.input nf rdy) s.out).1
          pending := some (s.p.next (s.input nf rdy) s.out).2
          cycles := s.cycles + 1 } :=
        ⟨h.queue.next _ _, h.out, fun r hr => by
          simp only [Option.some.injEq] at hr
          subst hr
          exact key⟩
      split
      · exact ⟨key'.queue, key'.out, key'.pend⟩
      · exact key'

theorem Fits.ustep {len : ProcessDataLength} {s : Sys} (hu : s.UInv) (h : s.Fits len) (e : UEv) :
    (s.ustep len e).Fits len := by
  cases e with
  | ev e => exact h.step hu e
  | lost => exact ⟨h.queue, h.out, by simp [Sys.ustep]⟩
  | crash => exact ⟨QueueOk.new len, h.out, by simp [Sys.ustep]⟩

theorem Fits.lostIn {len : ProcessDataLength} {s : Sys} (hu : s.UInv) (h : s.Fits len) (e : UEv) :
    ∀ seg ∈ s.lostIn e, seg ≠ [] ∧ seg.length ≤ len.userDataLen := by
  have new : ∀ seg ∈ s.newSegment, seg ≠ [] ∧ seg.length ≤ len.userDataLen := by
    intro seg hs
    unfold newSegment at hs
    split at hs
    · rename_i r hr
      split at hs
      · rename_i hn
        cases List.mem_singleton.1 hs
        exact ⟨(h.pend r hr).2 hn, (h.pend r hr).1⟩
      · cases hs
    · cases hs
  cases e with
  | lost => exact new
  | crash =>
    intro seg hs
    rcases List.mem_append.1 hs with hs | hs
    · exact new seg hs
    · exact ⟨List.ne_nil_of_length_pos (h.queue.2 seg hs).1, (h.queue.2 seg hs).2⟩
  | ev e =>
    cases e with
    | finish =>
      intro seg hs
      simp only [Sys.lostIn] at hs
      split at hs
      · rename_i r hr
        split at hs
        · rename_i hl
          cases List.mem_singleton.1 hs
          refine ⟨fun hd => ?_, h.out⟩
          rcases hu.pend r hr with ⟨-, h2 | h2⟩ | ⟨h1, -⟩
          · exact hl.2.2 h2
          · exact hl.2.2 (h2.trans hd.symm)
          · exact h1 hl.1
        · cases hs
      · cases hs
    | _ => intro seg hs; cases hs

theorem Fits.lostSegments {len : ProcessDataLength} {s : Sys} (hu : s.UInv) (h : s.Fits len)
    (evs : List UEv) :
    ∀ seg ∈ Sys.lostSegments len s evs, seg ≠ [] ∧ seg.length ≤ len.userDataLen := by
  induction evs generalizing s with
  | nil => intro seg hs; cases hs
  | cons e evs ih =>
    intro seg hs
    rcases List.mem_append.1 hs with hs | hs
    · exact h.lostIn hu e seg hs
    · exact ih (hu.ustep (len := len) e) (h.ustep hu e) seg hs

theorem lostSegments_append (len : ProcessDataLength) (s : Sys) (a b : List UEv) :
    lostSegments len s (a ++ b) = lostSegments len s a ++ lostSegments len (s.urun len a) b := by
  induction a generalizing s with
  | nil => rfl
  | cons e a ih =>
    simp only [List.cons_append, lostSegments, ih, List.append_assoc]
    rfl

theorem lostSegments_ev (len : ProcessDataLength) (s : Sys) (es : List Ev) (h : Ev.finish ∉ es) :
    lostSegments len s (es.map .ev) = [] := by
  induction es generalizing s with
  | nil => rfl
  | cons e es ih =>
    simp only [List.mem_cons, not_or] at h
    simp only [List.map_cons, lostSegments, ih _ h.2, List.append_nil]
    cases e with
    | finish => exact absurd rfl h.1
    | _ => rfl

/-- The new segment of a cycle is the one it takes from the queue. -/
theorem start_newSegment {s : Sys} (hu : s.UInv) (hp : s.pending = none) (nf rdy : Bool) :
    (s.step (.start nf rdy)).newSegment = s.p.outData.take
      (s.p.outData.length - (s.step (.start nf rdy)).p.outData.length) := by
  have hi := hu.init
  have key : (newSegment { s with
        p := (s.p.next (s.input nf rdy) s.out).1
        pending := some (s.p.next (s.input nf rdy) s.out).2
        cycles := s.cycles + 1 }) = s.p.outData.take
      (s.p.outData.length - (s.p.next (s.input nf rdy) s.out).1.outData.length) := by
    match hc : s.cycles with
    | 0 =>
      rw [hc] at hi
      rw [next_clear _ _ _ hi]
      simp [newSegment]
    | 1 =>
      rw [hc] at hi
      rw [next_reset _ _ _ hi]
      simp [newSegment]
    | n + 2 =>
      rw [hc] at hi
      rw [next_done _ _ _ hi]
      by_cases hbusy : incCnt s.ack = s.out.txCnt
      · rw [nextTx_busy _ _ _ (by simpa [input] using hbusy)]
        simp [newSegment, (nextRx_frame _ _).1]
      · cases hq : s.p.outData with
        | nil =>
          rw [nextTx_nil _ _ _ hq]
          simp [newSegment]
        | cons c cs =>
          rw [nextTx_send _ _ _ c cs hq (by simpa [input] using hbusy)]
          simp [newSegment, input, hbusy, (nextRx_frame _ _).1]
  simp only [Sys.step, hp, Option.isSome_none, Bool.false_eq_true, if_false]
  split <;> exact key

end Sys

namespace Plant

theorem Sim.same_queue {j : Nat} {len : ProcessDataLength} {oi oo : Word} {r : Plant} {u : Sys}
    (h : Sim j len oi oo r u) : r.queue j = u.p.outData := by
  unfold Plant.queue; rw [h.proc]

theorem Sim.same_pending {j : Nat} {len : ProcessDataLength} {oi oo : Word} {r : Plant} {u : Sys}
    (h : Sim j len oi oo r u) : r.pending.bind (outFrame len oo) = u.pending := by
  have hp := h.pending
  cases h5 : r.pending with
  | none =>
    rw [h5] at hp
    cases h6 : u.pending with
    | none => rfl
    | some x => rw [h6] at hp; simp at hp
  | some img =>
    rw [h5] at hp
    cases h6 : u.pending with
    | none => rw [h6] at hp; simp at hp
    | some x =>
      rw [h6] at hp
      simpa using hp

theorem Sim.same_new {j : Nat} {len : ProcessDataLength} {oi oo : Word} {r : Plant} {u : Sys}
    (h : Sim j len oi oo r u) : r.newSegment len oo = u.newSegment := by
  unfold Plant.newSegment Sys.newSegment
  rw [h.same_pending, h.out]
  cases u.pending <;> rfl

/-- What a step of the plant loses the system loses. -/
theorem USim.ustep_lost {oc : Bool} {cfg : CouplerConfig} {j : Nat}
    {len : ProcessDataLength} {oi oo : Word} {c0 : Coupler} (h0 : Coupler.new cfg = .ok c0)
    (hs0 : SerialAt c0 j len oi oo) (hd0 : BytesKept (infos c0) j)
    {s : Plant} {t : Sys} (hu : t.UInv) (h : USim oc cfg j len oi oo s t) (e : UPEv) :
    ∃ evs, USim oc cfg j len oi oo (s.ustep oc cfg j len oi oo e) (t.urun len evs) ∧
      (e ≠ .crash → NoCrash evs) ∧ lostImages evs ≤ lostOrFailed [e] ∧
      t.lostSegments len evs = s.lostIn oc cfg j len oi oo e := by
  obtain ⟨evs, h1, h2, -, -, h5⟩ := h.ustep_events h0 hs0 hd0 e
  refine ⟨evs, h1, h2, ?_⟩
  rcases h5 with ⟨rfl, rfl⟩ | ⟨rfl, rfl⟩ | ⟨rfl, rfl⟩ | ⟨pi, rfl, hp, nf, rdy, rfl⟩ |
    ⟨n1, n2, n3, es, hes, rfl, hf⟩
  · refine ⟨by simp [lostImages, lostOrFailed], ?_⟩
    simp only [Sys.lostSegments, Sys.lostIn, Plant.lostIn, List.append_nil, h.sim.same_pending,
      h.sim.out, h.sim.ack]
    cases t.pending <;> rfl
  · refine ⟨by simp [lostImages, lostOrFailed], ?_⟩
    simp only [Sys.lostSegments, Sys.lostIn, Plant.lostIn, List.append_nil, h.sim.same_new]
  · refine ⟨by simp [lostImages, lostOrFailed], ?_⟩
    simp only [Sys.lostSegments, Sys.lostIn, Plant.lostIn, List.append_nil, h.sim.same_new,
      h.sim.same_queue]
  · refine ⟨by simp [lostImages, lostOrFailed], ?_⟩
    simp only [Plant.lostIn]
    rw [h1.sim.same_queue, h.sim.same_queue]
    simp only [Sys.lostSegments, Sys.lostIn, List.nil_append, List.append_nil, Sys.urun, List.foldl,
      Sys.ustep]
    exact Sys.start_newSegment hu hp nf rdy
  · have hl : ∀ es : List Ev, lostImages (es.map .ev) = 0 := by
      intro es
      induction es with
      | nil => rfl
      | cons e es ih => simpa [lostImages] using ih
    refine ⟨by rw [hl]; simp, ?_⟩
    rw [Sys.lostSegments_ev len t es hes]
    cases e with
    | lost => exact absurd rfl n2
    | crash => exact absurd rfl n3
    | failing pi =>
      cases hf pi rfl
      simp only [Plant.lostIn]
      rw [h1.sim.same_queue, h.sim.same_queue]
      simp [Sys.urun]
    | ev e =>
      cases e with
      | finish => exact absurd rfl n1
      | _ => rfl

theorem lostImages_append (a b : List UEv) :
    lostImages (a ++ b) = lostImages a + lostImages b := by
  induction a with
  | nil => simp [lostImages]
  | cons e a ih => cases e <;> (simp [lostImages, ih]; try omega)

theorem USim.urun_lost {oc : Bool} {cfg : CouplerConfig} {j : Nat}
    {len : ProcessDataLength} {oi oo : Word} {c0 : Coupler} (h0 : Coupler.new cfg = .ok c0)
    (hs0 : SerialAt c0 j len oi oo) (hd0 : BytesKept (infos c0) j)
    {s : Plant} {t : Sys} (hu : t.UInv) (h : USim oc cfg j len oi oo s t) (pevs : List UPEv) :
    ∃ evs, USim oc cfg j len oi oo (s.urun oc cfg j len oi oo pevs) (t.urun len evs) ∧
      (NoCrashes pevs → NoCrash evs) ∧ lostImages evs ≤ lostOrFailed pevs ∧
      t.lostSegments len evs = s.lostSegments oc cfg j len oi oo pevs := by
  induction pevs generalizing s t with
  | nil => exact ⟨[], h, fun _ e he => (by cases he), by simp [lostImages, lostOrFailed], rfl⟩
  | cons e pevs ih =>
    obtain ⟨evs1, h1, n1, m1, l1⟩ := h.ustep_lost h0 hs0 hd0 hu e
    obtain ⟨evs2, h2, n2, m2, l2⟩ := ih (hu.urun (len := len) evs1) h1
    refine ⟨evs1 ++ evs2, ?_, ?_, ?_, ?_⟩
    · rw [urun_append]; exact h2
    · intro hn x hx
      rcases List.mem_append.1 hx with hx | hx
      · exact n1 (hn _ List.mem_cons_self) x hx
      · exact n2 (fun y hy => hn y (List.mem_cons_of_mem _ hy)) x hx
    · rw [lostImages_append]
      cases e <;> simp only [lostOrFailed] at m1 ⊢ <;> omega
    · rw [Sys.lostSegments_append, l1, l2]
      rfl

end Plant

end Spec

/-- C141: whatever images are lost and wherever the application crashes, what was written divides
into pieces in the order of writing: those that are kept are what the device has taken over, what is
in flight and what is queued; those that are not kept are the segments the schedule loses. -/
theorem C141_processor {len : ProcessDataLength} {s : Sys} (h : s.Initial len) (evs : List UEv) :
    let t := s.urun len evs
    ∃ l : Pieces, l.all = t.written ∧ l.kept = t.received ++ t.inFlight ++ t.queued ∧
      l.gone ~ s.lostSegments len evs := by
  have := (Sys.Fates.initial h).urun (len := len) (Sys.UInv.initial h) evs
  exact this.pieces

/-- C141: each lost segment is a single frame's: it has at least one byte and fits into a frame.
Without crashes each lost image loses at most one. -/
theorem C141_bound {len : ProcessDataLength} {s : Sys} (h : s.Initial len) (evs : List UEv) :
    (∀ seg ∈ s.lostSegments len evs, 1 ≤ seg.length ∧ seg.length ≤ capacity len) ∧
    (NoCrash evs → (s.lostSegments len evs).length ≤ lostImages evs) := by
  have hc : capacity len = len.userDataLen := by cases len <;> rfl
  rw [hc]
  exact ⟨fun seg hs =>
    have := (Sys.Fits.initial h).lostSegments (Sys.UInv.initial h) evs seg hs
    ⟨List.length_pos_of_ne_nil this.1, this.2⟩,
    Sys.lostSegments_length (.initial h) evs⟩

/-- C141 behind a coupler: whatever cycles fail, whatever images are lost and wherever the application
crashes, the bytes written to a serial module divide into pieces in the order of writing: those that
are kept are what the device has taken over, what is in flight and what is queued; those that are not
kept are the segments the schedule loses. Each of these fits into a frame, and without crashes there
are not more of them than lost images and failing cycles. -/
theorem C141_coupler (oc : Bool) (cfg : CouplerConfig) (j : Nat)
    (len : ProcessDataLength) (oi oo : Word) (s : Plant) (h : s.Initial cfg j len oi oo)
    (evs : List UPEv) :
    let r := s.urun oc cfg j len oi oo evs
    let lost := s.lostSegments oc cfg j len oi oo evs
    (∃ l : Pieces, l.all = r.written ∧ l.kept = r.received ++ r.inFlight len oo ++ r.queued j ∧
      l.gone ~ lost) ∧
    (∀ seg ∈ lost, 1 ≤ seg.length ∧ seg.length ≤ capacity len) ∧
    (NoCrashes evs → lost.length ≤ lostOrFailed evs) := by
  obtain ⟨t, h1, h2⟩ := h.sim
  obtain ⟨tevs, g1, g2, g3, g4⟩ := Plant.USim.urun_lost (oc := oc) h.c h.serial h.disjoint
    (Sys.UInv.initial h1) ⟨h2, ⟨s.c, [], h.c, rfl⟩⟩ evs
  simp only
  rw [← g4, g1.sim.same_queued, g1.sim.same_inFlight, ← g1.sim.received, ← g1.sim.written]
  exact ⟨C141_processor h1 tevs, (C141_bound h1 tevs).1,
    fun hc => le_trans ((C141_bound h1 tevs).2 (g2 hc)) g3⟩

/-- A schedule with a lost image and a crash: the first six bytes go with the lost image, two more
with the crash. -/
example : exSys.lostSegments .EightBytes exLosses =
      [[1#8, 2#8, 3#8, 4#8, 5#8, 6#8], [8#8, 9#8]] ∧
    (exSys.urun .EightBytes exLosses).received = [7#8, 10#8] := by decide

example := C141_processor exSys_ready exLosses

example := C141_bound exSys_ready exLosses

/-- An image of the time before a crash is replaced before the device has looked at it. -/
example : exSys.lostSegments .EightBytes
    [.ev (.start false true), .ev .finish, .ev (.start false true), .ev .finish,
     .ev (.write [1#8]), .ev (.start false true), .ev .finish, .crash, .ev (.start false true),
     .ev .finish] = [[1#8]] := by decide

/-- The failing cycle takes the first six bytes from the queue. -/
example : (exPlant.run true 3 .EightBytes 0x0010#16 0x8010#16 exBefore).lostIn true exCfg 3
    .EightBytes 0x0010#16 0x8010#16 (.failing exPi) = [[1#8, 2#8, 3#8, 4#8, 5#8, 6#8]] := by
  simp only [Plant.lostIn]
  rw [exFailing]
  decide +kernel

example := C141_coupler true exCfg 3 .EightBytes 0x0010#16 0x8010#16 exPlant exPlant_initial
  (exBefore.map .ev ++ [.failing exPi, .ev (.start exPi), .lost, .crash, .ev (.write [9#8])])

end Ur20
