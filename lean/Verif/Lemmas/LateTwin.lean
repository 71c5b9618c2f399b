import Verif.Lemmas.Late
import Verif.Spec.LateRestart

/-!
# An application that starts with data in the image of the device

It behaves as if the image carried no data; only the device can take over these data once.
-/

namespace Ur20

open Com Spec
open scoped List

namespace Spec.Late

/-- The same with no data in the image of the device. -/
def cleared (s : Late) : Late :=
  { s with out := { s.out with data := [] }, kept := { s.kept with data := [] } }

theorem Started.cleared {len : ProcessDataLength} {s : Late} (h : s.Started len) :
    s.cleared.Initial len :=
  ⟨h.p, by simp only [Late.cleared]; rw [h.kept], rfl, h.inp, h.ins, h.outs, h.ack, h.rxCnt, h.shown, h.logs⟩

/-- `s` carries the data `d` in some images with the number `n` where `t` carries none; `a` is the number
of the segment taken over last at the start. -/
structure Twin (d : List Byte) (n a : Nat) (s t : Late) : Prop where
  p : s.p = t.p
  inp : s.inp = t.inp
  ins : s.ins = t.ins
  ack : s.ack = t.ack
  rxCnt : s.rxCnt = t.rxCnt
  avail : s.avail = t.avail
  cycles : s.cycles = t.cycles
  written : s.written = t.written
  shown : s.shown = t.shown
  early : s.early = t.early
  delivered : s.delivered = t.delivered
  images : ∃ olds news, s.out :: s.outs = olds.map (fun x => { x with data := d }) ++ news ∧
    t.out :: t.outs = olds ++ news ∧ (∀ x ∈ olds, x.data = [] ∧ x.txCnt = n) ∧
    (s.kept = t.kept ∨ (news = [] ∧ s.kept = { t.kept with data := d } ∧ t.kept.data = [] ∧
      t.kept.txCnt = n)) ∧
    (olds ≠ [] → t.received = [] ∧ (s.received = [] ∧ s.ack = a ∨ s.ack = n))
  received : ∃ old, s.received = old ++ t.received ∧ (old = [] ∨ (n = (a + 1) % 4 ∧ old = d))

theorem Started.twin {len : ProcessDataLength} {s : Late} (h : s.Started len) :
    Twin s.out.data s.out.txCnt s.ack s s.cleared where
  p := rfl
  inp := rfl
  ins := rfl
  ack := rfl
  rxCnt := rfl
  avail := rfl
  cycles := rfl
  written := rfl
  shown := rfl
  early := rfl
  delivered := rfl
  images := by
    refine ⟨[s.cleared.out], [], ?_, ?_, ?_, ?_, fun _ => ⟨h.logs.2.2.1, .inl ⟨h.logs.2.2.1, rfl⟩⟩⟩
    · simp only [Late.cleared, h.outs, List.map_cons, List.map_nil, List.append_nil]
    · simp only [Late.cleared, h.outs, List.append_nil]
    · intro x hx
      rw [List.mem_singleton.1 hx]
      exact ⟨rfl, rfl⟩
    · exact .inr ⟨rfl, by simp only [Late.cleared]; rw [h.kept], rfl, by
        simp only [Late.cleared]; rw [h.kept]⟩
  received := ⟨[], by simp [Late.cleared], .inl rfl⟩

theorem map_eraseIdx {α β : Type} (f : α → β) (l : List α) (n : Nat) :
    (l.map f).eraseIdx n = (l.eraseIdx n).map f := by
  induction l generalizing n with
  | nil => rfl
  | cons x l ih =>
    cases n with
    | zero => rfl
    | succ n => simp only [List.map_cons, List.eraseIdx_cons_succ, ih]

/-- Images that get lost. -/
theorem twin_lost {olds news : List RsOut} {f : RsOut → RsOut} {so tO : RsOut} {ss ts : List RsOut}
    (h1 : so :: ss = olds.map f ++ news) (h2 : tO :: ts = olds ++ news) (n : Nat) :
    ∃ olds' news', so :: ss.eraseIdx n = olds'.map f ++ news' ∧ tO :: ts.eraseIdx n = olds' ++ news' ∧
      (∀ x ∈ olds', x ∈ olds) ∧ (news = [] → news' = []) ∧ (olds' ≠ [] → olds ≠ []) := by
  have e1 : so :: ss.eraseIdx n = (so :: ss).eraseIdx (n + 1) := rfl
  have e2 : tO :: ts.eraseIdx n = (tO :: ts).eraseIdx (n + 1) := rfl
  rw [e1, e2, h1, h2]
  by_cases hn : n + 1 < olds.length
  · refine ⟨olds.eraseIdx (n + 1), news, ?_, ?_, fun x hx => (List.eraseIdx_sublist _ _).subset hx, id, ?_⟩
    · rw [List.eraseIdx_append_of_lt_length (by simpa using hn), map_eraseIdx]
    · rw [List.eraseIdx_append_of_lt_length hn]
    · intro _ h0
      rw [h0] at hn
      simp at hn
  · refine ⟨olds, news.eraseIdx (n + 1 - olds.length), ?_, ?_, fun x hx => hx, ?_, id⟩
    · rw [List.eraseIdx_append_of_length_le (by simpa using hn), List.length_map]
    · rw [List.eraseIdx_append_of_length_le (by omega)]
    · intro h0
      rw [h0]
      rfl

/-- A cycle with data in the image of the outputs and without. -/
theorem next_data (p : MessageProcessor) (i : RsIn) (k : RsOut) (d : List Byte) :
    (p.next i { k with data := d }).1 = (p.next i k).1 ∧
    ((p.next i { k with data := d }).2 = (p.next i k).2 ∨
      (p.next i { k with data := d }).2 = { (p.next i k).2 with data := d } ∧
        (p.next i k).2.data = k.data ∧ (p.next i k).2.txCnt = k.txCnt) := by
  cases hs : p.initState with
  | clearBuffers => rw [next_clear _ _ _ hs, next_clear _ _ _ hs]; exact ⟨rfl, .inl rfl⟩
  | reset => rw [next_reset _ _ _ hs, next_reset _ _ _ hs]; exact ⟨rfl, .inl rfl⟩
  | done =>
    rw [next_done _ _ _ hs, next_done _ _ _ hs]
    cases hq : p.outData with
    | nil =>
      rw [nextTx_nil _ _ _ hq, nextTx_nil _ _ _ hq]
      exact ⟨rfl, .inr ⟨rfl, rfl, rfl⟩⟩
    | cons c cs =>
      by_cases hx : incCnt i.txCntAck = k.txCnt
      · rw [nextTx_busy p i k hx, nextTx_busy p i { k with data := d } hx]
        exact ⟨rfl, .inr ⟨rfl, rfl, rfl⟩⟩
      · rw [nextTx_send p i k c cs hq hx, nextTx_send p i { k with data := d } c cs hq hx]
        exact ⟨rfl, .inl rfl⟩

/-- One more image with the data of the start. -/
theorem Twin.more {d : List Byte} {n : Nat} {so tO x y : RsOut} {ss ts olds : List RsOut} {P : Prop}
    (i1 : so :: ss = olds.map (fun x => { x with data := d }) ++ [])
    (i2 : tO :: ts = olds ++ []) (i3 : ∀ x ∈ olds, x.data = [] ∧ x.txCnt = n)
    (i5 : olds ≠ [] → P) (hk : x = { y with data := d }) (h1 : y.data = []) (h2 : y.txCnt = n) :
    ∃ olds news, so :: (ss ++ [x]) = olds.map (fun x => { x with data := d }) ++ news ∧
      tO :: (ts ++ [y]) = olds ++ news ∧ (∀ x ∈ olds, x.data = [] ∧ x.txCnt = n) ∧
      (x = y ∨ (news = [] ∧ x = { y with data := d } ∧ y.data = [] ∧ y.txCnt = n)) ∧
      (olds ≠ [] → P) := by
  refine ⟨olds ++ [y], [], ?_, ?_, ?_, .inr ⟨rfl, hk, h1, h2⟩, fun _ => i5 ?_⟩
  · rw [List.map_append, List.append_nil, ← List.cons_append, i1, hk]
    simp
  · rw [List.append_nil, ← List.cons_append, i2, List.append_nil]
  · intro x hx
    rcases List.mem_append.1 hx with hx | hx
    · exact i3 x hx
    · rw [List.mem_singleton.1 hx]
      exact ⟨h1, h2⟩
  · rintro rfl
    simp at i1

theorem Twin.step {d : List Byte} {n a : Nat} {s t : Late} (h : Twin d n a s t)
    (e : LateEv) : Twin d n a (s.step e) (t.step e) := by
  obtain ⟨olds, news, i1, i2, i3, i4, i5⟩ := h.images
  obtain ⟨old, r1, r2⟩ := h.received
  have hout : s.out.txCnt = t.out.txCnt ∧ s.out.rxCntAck = t.out.rxCntAck := by
    cases olds with
    | nil =>
      simp only [List.map_nil, List.nil_append] at i1 i2
      rw [← i2] at i1
      rw [(List.cons.inj i1).1]
      exact ⟨rfl, rfl⟩
    | cons x olds =>
      simp only [List.map_cons, List.cons_append] at i1 i2
      rw [(List.cons.inj i1).1, (List.cons.inj i2).1]
      exact ⟨rfl, rfl⟩
  cases e with
  | write buf =>
    simp only [Late.step]
    exact ⟨by rw [h.p], h.inp, h.ins, h.ack, h.rxCnt, h.avail, h.cycles, by rw [h.written], h.shown,
      h.early, h.delivered, ⟨olds, news, i1, i2, i3, i4, i5⟩, ⟨old, r1, r2⟩⟩
  | read k =>
    simp only [Late.step, read_ok]
    exact ⟨by simp only [h.p], h.inp, h.ins, h.ack, h.rxCnt, h.avail, h.cycles, h.written, h.shown,
      h.early, by simp only [h.p, h.delivered], ⟨olds, news, i1, i2, i3, i4, i5⟩, ⟨old, r1, r2⟩⟩
  | sample nf rdy =>
    refine ⟨h.p, h.inp, ?_, h.ack, h.rxCnt, h.avail, h.cycles, h.written, h.shown, h.early, h.delivered,
      ⟨olds, news, i1, i2, i3, i4, i5⟩, ⟨old, r1, r2⟩⟩
    simp only [Late.step, Late.input, h.ins, h.avail, h.rxCnt, h.ack, h.shown]
  | arrive =>
    simp only [Late.step]
    rw [h.ins]
    split
    · exact ⟨h.p, rfl, rfl, h.ack, h.rxCnt, h.avail, h.cycles, h.written, h.shown, h.early, h.delivered,
        ⟨olds, news, i1, i2, i3, i4, i5⟩, ⟨old, r1, r2⟩⟩
    · exact h
  | loseIn k =>
    exact ⟨h.p, h.inp, by simp only [Late.step, h.ins], h.ack, h.rxCnt, h.avail, h.cycles, h.written,
      h.shown, h.early, h.delivered, ⟨olds, news, i1, i2, i3, i4, i5⟩, ⟨old, r1, r2⟩⟩
  | cycle =>
    have hn : (s.p.next s.inp s.kept).1 = (t.p.next t.inp t.kept).1 ∧
        ((s.p.next s.inp s.kept).2 = (t.p.next t.inp t.kept).2 ∨
          (news = [] ∧ (s.p.next s.inp s.kept).2 = { (t.p.next t.inp t.kept).2 with data := d } ∧
            (t.p.next t.inp t.kept).2.data = [] ∧ (t.p.next t.inp t.kept).2.txCnt = n)) := by
      rw [h.p, h.inp]
      rcases i4 with hk | ⟨hk0, hk, hk1, hk2⟩
      · rw [hk]
        exact ⟨rfl, .inl rfl⟩
      · obtain ⟨g1, g2⟩ := next_data t.p t.inp t.kept d
        rw [hk]
        exact ⟨g1, g2.imp id fun ⟨a1, a2, a3⟩ => ⟨hk0, a1, a2.trans hk1, a3.trans hk2⟩⟩
    simp only [Late.step]
    refine ⟨hn.1, h.inp, h.ins, h.ack, h.rxCnt, h.avail, by simp only [h.cycles], h.written, h.shown,
      by simp only [h.cycles, h.shown, h.early], h.delivered, ?_, ⟨old, r1, r2⟩⟩
    rcases hn.2 with hk | ⟨hk0, hk, hk1, hk2⟩
    · refine ⟨olds, news ++ [(t.p.next t.inp t.kept).2], ?_, ?_, i3, .inl hk, i5⟩
      · rw [← List.append_assoc, ← i1, List.cons_append, hk]
      · rw [← List.append_assoc, ← i2, List.cons_append]
    · subst hk0
      exact Twin.more i1 i2 i3 i5 hk hk1 hk2
  | again =>
    simp only [Late.step]
    refine ⟨h.p, h.inp, h.ins, h.ack, h.rxCnt, h.avail, h.cycles, h.written, h.shown, h.early,
      h.delivered, ?_, ⟨old, r1, r2⟩⟩
    rcases i4 with hk | ⟨hk0, hk, hk1, hk2⟩
    · refine ⟨olds, news ++ [t.kept], ?_, ?_, i3, .inl hk, i5⟩
      · rw [← List.append_assoc, ← i1, List.cons_append, hk]
      · rw [← List.append_assoc, ← i2, List.cons_append]
    · subst hk0
      exact Twin.more i1 i2 i3 i5 hk hk1 hk2
  | deliver =>
    simp only [Late.step]
    have hlen : s.outs.length = t.outs.length := by
      have e1 := congrArg List.length i1
      have e2 := congrArg List.length i2
      simp only [List.length_cons, List.length_append, List.length_map] at e1 e2
      omega
    cases hs : s.outs with
    | nil =>
      have : t.outs = [] := List.length_eq_zero_iff.1 (by rw [← hlen, hs]; rfl)
      simp only [this]
      exact h
    | cons x xs =>
      cases ht' : t.outs with
      | nil =>
        rw [hs, ht'] at hlen
        cases hlen
      | cons y ys =>
        simp only
        refine ⟨h.p, h.inp, h.ins, h.ack, h.rxCnt, h.avail, h.cycles, h.written, h.shown, h.early,
          h.delivered, ?_, ⟨old, r1, r2⟩⟩
        rw [hs] at i1
        rw [ht'] at i2
        cases olds with
        | nil =>
          simp only [List.map_nil, List.nil_append] at i1 i2
          refine ⟨[], x :: xs, by simp, ?_, by simp, i4.imp id fun h0 => ?_, fun h0 => absurd rfl h0⟩
          · rw [← i2] at i1
            simp only [List.nil_append]
            exact (List.cons.inj i1).2.symm
          · rw [h0.1] at i1
            cases i1
        | cons z olds =>
          simp only [List.map_cons, List.cons_append] at i1 i2
          exact ⟨olds, news, (List.cons.inj i1).2, (List.cons.inj i2).2,
            fun w hw => i3 w (List.mem_cons_of_mem _ hw), i4, fun _ => i5 (by simp)⟩
  | loseOut k =>
    simp only [Late.step]
    obtain ⟨olds', news', j1, j2, j3, j4, j5⟩ := twin_lost i1 i2 k
    exact ⟨h.p, h.inp, h.ins, h.ack, h.rxCnt, h.avail, h.cycles, h.written, h.shown, h.early,
      h.delivered, ⟨olds', news', j1, j2, fun x hx => i3 x (j3 x hx),
        i4.imp id fun h0 => ⟨j4 h0.1, h0.2⟩, fun h0 => i5 (j5 h0)⟩, ⟨old, r1, r2⟩⟩
  | take =>
    simp only [Late.step]
    rw [hout.1, h.ack]
    split
    · rename_i hx
      cases olds with
      | nil =>
        have he : s.out = t.out := by
          simp only [List.map_nil, List.nil_append] at i1 i2
          rw [← i2] at i1
          exact (List.cons.inj i1).1
        exact ⟨h.p, h.inp, h.ins, rfl, h.rxCnt, h.avail, h.cycles, h.written, h.shown, h.early,
          h.delivered, ⟨[], news, i1, i2, i3, i4, fun h0 => absurd rfl h0⟩,
          ⟨old, by simp only [r1, he, List.append_assoc], r2⟩⟩
      | cons z olds =>
        have e1 : s.out = { z with data := d } := by
          simp only [List.map_cons, List.cons_append] at i1
          exact (List.cons.inj i1).1
        have e2 : t.out = z := by
          simp only [List.cons_append] at i2
          exact (List.cons.inj i2).1
        obtain ⟨z1, z2⟩ := i3 z List.mem_cons_self
        obtain ⟨k1, k2⟩ := i5 (by simp)
        rw [e2, z2] at hx
        rcases k2 with ⟨k2, k3⟩ | k3
        · refine ⟨h.p, h.inp, h.ins, rfl, h.rxCnt, h.avail, h.cycles, h.written, h.shown, h.early,
            h.delivered, ⟨z :: olds, news, i1, i2, i3, i4, fun _ => ⟨?_, .inr ?_⟩⟩, ⟨d, ?_, .inr ⟨?_, rfl⟩⟩⟩
          · simp only [k1, e2, z1, List.nil_append]
          · simp only [e2, z2]
          · simp only [k1, k2, e1, e2, z1, List.nil_append, List.append_nil]
          · rw [← k3, h.ack]
            exact hx
        · rw [← h.ack, k3] at hx
          omega
    · exact h
  | post seg =>
    simp only [Late.step]
    rw [hout.2, h.rxCnt]
    split
    · exact ⟨h.p, h.inp, h.ins, h.ack, rfl, rfl, h.cycles, h.written, by simp only [h.shown], h.early,
        h.delivered, ⟨olds, news, i1, i2, i3, i4, i5⟩, ⟨old, r1, r2⟩⟩
    · exact h
  | hide =>
    simp only [Late.step]
    rw [hout.2, h.rxCnt]
    split
    · exact ⟨h.p, h.inp, h.ins, h.ack, rfl, rfl, h.cycles, h.written, h.shown, h.early,
        h.delivered, ⟨olds, news, i1, i2, i3, i4, i5⟩, ⟨old, r1, r2⟩⟩
    · exact h

theorem Twin.run {d : List Byte} {n a : Nat} {s t : Late} (h : Twin d n a s t)
    (evs : List LateEv) : Twin d n a (s.run evs) (t.run evs) := by
  induction evs generalizing s t with
  | nil => exact h
  | cons e evs ih => exact ih (h.step e)

/-- What was sent, with and without the data at the start. -/
theorem Twin.sent {s u t : Late} {w : List Byte} (h : Twin s.out.data s.out.txCnt s.ack u t)
    (hv : ({ t with written := w } : Late).LTx) :
    ∃ old, (old = [] ∨ old = s.waiting) ∧
      u.received ++ u.inFlight = old ++ (t.received ++ t.inFlight) := by
  obtain ⟨old, r1, r2⟩ := h.received
  have hold : old = [] ∨ old = s.waiting := by
    rcases r2 with r2 | ⟨r2, r3⟩
    · exact .inl r2
    · exact .inr (by rw [Late.waiting, if_pos r2, r3])
  obtain ⟨olds, news, i1, i2, i3, i4, i5⟩ := h.images
  rcases i4 with hk | ⟨hc, hk, k1, k2⟩
  · refine ⟨old, hold, ?_⟩
    have : u.inFlight = t.inFlight := by rw [Late.inFlight, Late.inFlight, hk, h.ack]
    rw [r1, this, List.append_assoc]
  · obtain ⟨l1, l2⟩ := i5 (by
      rintro rfl
      rw [hc] at i1
      cases i1)
    have ht : t.inFlight = [] := by
      rw [Late.inFlight, k1]
      split <;> rfl
    rw [ht, l1, List.nil_append, Late.inFlight, hk]
    split
    · rename_i hx
      simp only at hx
      rw [k2] at hx
      rcases l2 with ⟨l2, l3⟩ | l3
      · refine ⟨s.waiting, .inr rfl, ?_⟩
        rw [l3] at hx
        rw [l2, Late.waiting, if_pos hx, List.nil_append, List.append_nil]
      · have : t.ack < 4 := hv.ack
        rw [← h.ack, l3] at this
        rw [l3] at hx
        omega
    · exact ⟨old, hold, by rw [r1, l1, List.append_nil]⟩

/-- What was taken over and waits for the device, with and without the data at the start. -/
theorem Twin.waits {s u t : Late} {w : List Byte} (h : Twin s.out.data s.out.txCnt s.ack u t)
    (hv : ({ t with written := w } : Late).LTx) :
    ∃ old, (old = [] ∨ old = s.waiting) ∧
      u.received ++ u.waiting <+: old ++ (t.received ++ t.inFlight) := by
  obtain ⟨olds, news, i1, i2, i3, i4, i5⟩ := h.images
  obtain ⟨old, r1, r2⟩ := h.received
  have hold : old = [] ∨ old = s.waiting := by
    rcases r2 with r2 | ⟨r2, r3⟩
    · exact .inl r2
    · exact .inr (by rw [Late.waiting, if_pos r2, r3])
  cases olds with
  | nil =>
    have he : u.out = t.out := by
      simp only [List.map_nil, List.nil_append] at i1 i2
      rw [← i2] at i1
      exact (List.cons.inj i1).1
    refine ⟨old, hold, ?_⟩
    have hw : t.received ++ t.waiting <+: t.received ++ t.inFlight := by
      unfold Late.waiting
      split
      · rename_i hx
        rcases hv.acks with ⟨a1, -⟩ | ⟨a1, a2, -⟩
        · rw [hv.same _ List.mem_cons_self (hx.trans a1.symm), Late.inFlight, if_pos a1]
          exact List.prefix_refl _
        · exact absurd ((a2 _ List.mem_cons_self).symm.trans hx) a1
      · rw [List.append_nil]
        exact List.prefix_append _ _
    have hq : u.waiting = t.waiting := by rw [Late.waiting, Late.waiting, he, h.ack]
    rw [r1, hq, List.append_assoc]
    exact (List.prefix_append_right_inj old).2 hw
  | cons z olds =>
    have e1 : u.out = { z with data := s.out.data } := by
      simp only [List.map_cons, List.cons_append] at i1
      exact (List.cons.inj i1).1
    obtain ⟨z1, z2⟩ := i3 z List.mem_cons_self
    obtain ⟨k1, k2⟩ := i5 (by simp)
    rw [show u.waiting = if u.out.txCnt = (u.ack + 1) % 4 then u.out.data else [] from rfl]
    split
    · rename_i hx
      rw [e1, z2] at hx
      rcases k2 with ⟨k2, k3⟩ | k3
      · rw [k3] at hx
        refine ⟨s.waiting, .inr rfl, ?_⟩
        rw [k2, e1, Late.waiting, if_pos hx]
        exact List.prefix_append _ _
      · have : t.ack < 4 := hv.ack
        rw [← h.ack, k3] at this
        rw [k3] at hx
        omega
    · refine ⟨old, hold, ?_⟩
      rw [r1, k1, List.append_nil, List.append_nil]
      exact List.prefix_append _ _

end Spec.Late

end Ur20
