import Verif.Lemmas.Protocol
import Verif.Spec.Late

/-!
# Invariants of a processor with late and lost images
-/

namespace Ur20

open Com Spec

namespace Spec.Late

/-- Bytes waiting in the transmit queue. -/
def lqueued (s : Late) : List Byte := s.p.outData.flatten

/-- What holds of the transmit direction. -/
structure LTx (s : Late) : Prop where
  init : s.p.initState = initStateOf s.cycles
  ack : s.ack < 4
  data : s.p.initState ≠ .done → s.kept.data = []
  bytes : s.received ++ s.inFlight ++ s.lqueued = s.written
  same : ∀ x ∈ s.out :: s.outs, x.txCnt = s.kept.txCnt → x.data = s.kept.data
  order : (s.out :: s.outs).Pairwise fun x y => x.txCnt = s.kept.txCnt → y.txCnt = s.kept.txCnt
  acks : (s.kept.txCnt = (s.ack + 1) % 4 ∧ ∀ a ∈ s.inp :: s.ins, a.txCntAck = s.ack) ∨
    (s.kept.txCnt ≠ (s.ack + 1) % 4 ∧ (∀ x ∈ s.out :: s.outs, x.txCnt = s.kept.txCnt) ∧
      (∀ a ∈ s.inp :: s.ins, a.txCntAck = s.ack ∨
        (a.txCntAck < 4 ∧ s.kept.txCnt = (a.txCntAck + 1) % 4)) ∧
      (s.inp :: s.ins).Pairwise fun a b => a.txCntAck = s.ack → b.txCntAck = s.ack)

theorem LTx.initial {len : ProcessDataLength} {s : Late} (h : s.Initial len) : s.LTx := by
  obtain ⟨nf, rdy, hi⟩ := h.inp
  obtain ⟨l1, l2, l3, l4⟩ := h.logs
  refine ⟨by rw [h.p, l1]; rfl, h.ack, fun _ => by rw [h.kept, h.data], ?_, ?_, ?_, ?_⟩
  · simp [inFlight, lqueued, l2, l3, h.p, MessageProcessor.new, h.kept, h.data]
  · simp [h.outs, h.kept]
  · simp [h.outs]
  · rw [h.ins, h.outs, hi, h.kept]
    by_cases hk : s.out.txCnt = (s.ack + 1) % 4
    · left
      simp [hk, Late.input]
    · right
      simp [hk, Late.input]

/-- Images that arrive or get lost. -/
theorem LTx.mono {s : Late} (h : s.LTx) {inp : RsIn} {ins : List RsIn} {out : RsOut}
    {outs : List RsOut} (hi : (inp :: ins).Sublist (s.inp :: s.ins))
    (ho : (out :: outs).Sublist (s.out :: s.outs)) :
    ({ s with inp := inp, ins := ins, out := out, outs := outs } : Late).LTx := by
  refine ⟨h.init, h.ack, h.data, h.bytes, fun x hx => h.same x (ho.subset hx), h.order.sublist ho, ?_⟩
  rcases h.acks with ⟨a, b⟩ | ⟨a, b, c, d⟩
  · exact .inl ⟨a, fun x hx => b x (hi.subset hx)⟩
  · exact .inr ⟨a, fun x hx => b x (ho.subset hx), fun x hx => c x (hi.subset hx), d.sublist hi⟩

/-- What a cycle does to the transmit direction. -/
theorem late_next (p : MessageProcessor) (i : RsIn) (o : RsOut) (hi : i.txCntAck < 4)
    (hd : p.initState ≠ .done → o.data = []) :
    ((p.next i o).2.txCnt = o.txCnt ∧ (p.next i o).2.data = o.data ∧
      (p.next i o).1.outData = p.outData ∧
      ((p.next i o).1.initState ≠ .done → (p.next i o).2.data = [])) ∨
    (p.initState = .done ∧ o.txCnt ≠ (i.txCntAck + 1) % 4 ∧
      (p.next i o).2.txCnt = (i.txCntAck + 1) % 4 ∧
      (p.next i o).1.initState = .done ∧
      p.outData = (p.next i o).2.data :: (p.next i o).1.outData) := by
  cases hs : p.initState with
  | clearBuffers =>
    have := hd (by rw [hs]; simp)
    rw [next_clear _ _ _ hs]
    simp [this]
  | reset =>
    have := hd (by rw [hs]; simp)
    rw [next_reset _ _ _ hs]
    simp [this]
  | done =>
    have h1 : (p.next i o).1.outData = (p.nextTx i o).1.outData := by
      rw [next_done _ _ _ hs, (nextRx_frame _ _).1]
    have h2 : (p.next i o).2.txCnt = (p.nextTx i o).2.txCnt := by rw [next_done _ _ _ hs]
    have h3 : (p.next i o).2.data = (p.nextTx i o).2.data := by rw [next_done _ _ _ hs]
    have h4 : (p.next i o).1.initState = .done := by
      rw [next_done _ _ _ hs, (nextRx_frame _ _).2.1, (nextTx_frame _ _ _).2.2.1, hs]
    rw [h1, h2, h3, h4]
    by_cases hb : incCnt i.txCntAck = o.txCnt
    · left
      rw [nextTx_busy _ _ _ hb]
      simp
    · cases hq : p.outData with
      | nil =>
        left
        rw [nextTx_nil _ _ _ hq]
        simp [hq]
      | cons c cs =>
        right
        rw [nextTx_send _ _ _ c cs hq hb]
        rw [incCnt_eq _ hi] at hb
        simp [incCnt_eq _ hi, Ne.symm hb]

theorem LTx.inpAck {s : Late} (h : s.LTx) {a : RsIn} (ha : a ∈ s.inp :: s.ins) : a.txCntAck < 4 := by
  have := h.ack
  rcases h.acks with ⟨-, b⟩ | ⟨-, -, c, -⟩
  · rw [b _ ha]; exact h.ack
  · rcases c _ ha with c | c
    · omega
    · exact c.1

theorem LTx.step {s : Late} (h : s.LTx) (e : LateEv) : (s.step e).LTx := by
  cases e with
  | write buf =>
    refine ⟨h.init, h.ack, h.data, ?_, h.same, h.order, h.acks⟩
    have hq : ({ s with p := (s.p.write buf).1, written := s.written ++ buf } : Late).lqueued
        = s.lqueued ++ buf := by
      simp only [lqueued, MessageProcessor.write, List.flatten_append]
      rw [chunks_flatten]
      cases s.p.processDataLen <;> decide
    show s.received ++ s.inFlight ++ _ = s.written ++ buf
    rw [Late.step, hq, ← List.append_assoc, h.bytes]
  | read n =>
    simp only [Late.step, read_ok]
    exact ⟨h.init, h.ack, h.data, h.bytes, h.same, h.order, h.acks⟩
  | sample nf rdy =>
    refine ⟨h.init, h.ack, h.data, h.bytes, h.same, h.order, ?_⟩
    simp only [Late.step]
    rcases h.acks with ⟨a, b⟩ | ⟨a, b, c, d⟩
    · refine .inl ⟨a, fun x hx => ?_⟩
      rw [← List.cons_append, List.mem_append, List.mem_singleton] at hx
      rcases hx with hx | rfl
      · exact b x hx
      · rfl
    · refine .inr ⟨a, b, fun x hx => ?_, ?_⟩
      · rw [← List.cons_append, List.mem_append, List.mem_singleton] at hx
        rcases hx with hx | rfl
        · exact c x hx
        · exact .inl rfl
      · rw [← List.cons_append, List.pairwise_append]
        refine ⟨d, List.pairwise_singleton _ _, fun x _ y hy _ => ?_⟩
        rw [List.mem_singleton.1 hy]
        rfl
  | arrive =>
    simp only [Late.step]
    split
    · rename_i i ins hins
      exact h.mono (by rw [hins]; exact List.sublist_cons_self _ _) (List.Sublist.refl _)
    · exact h
  | loseIn n =>
    exact h.mono (inp := s.inp) (ins := s.ins.eraseIdx n) (out := s.out) (outs := s.outs)
      ((List.eraseIdx_sublist _ _).cons_cons _) (List.Sublist.refl _)
  | again =>
    refine ⟨h.init, h.ack, h.data, h.bytes, ?_, ?_, ?_⟩
    · intro x hx
      simp only [Late.step] at hx ⊢
      rw [← List.cons_append, List.mem_append, List.mem_singleton] at hx
      rcases hx with hx | rfl
      · exact h.same x hx
      · exact fun _ => rfl
    · simp only [Late.step]
      rw [← List.cons_append, List.pairwise_append]
      refine ⟨h.order, List.pairwise_singleton _ _, fun x _ y hy _ => ?_⟩
      rw [List.mem_singleton.1 hy]
    · simp only [Late.step]
      rcases h.acks with ⟨a, b⟩ | ⟨a, b, c, d⟩
      · exact .inl ⟨a, b⟩
      · refine .inr ⟨a, fun x hx => ?_, c, d⟩
        rw [← List.cons_append, List.mem_append, List.mem_singleton] at hx
        rcases hx with hx | rfl
        · exact b x hx
        · rfl
  | deliver =>
    simp only [Late.step]
    split
    · rename_i o outs houts
      exact h.mono (List.Sublist.refl _) (by rw [houts]; exact List.sublist_cons_self _ _)
    · exact h
  | loseOut n =>
    exact h.mono (inp := s.inp) (ins := s.ins) (out := s.out) (outs := s.outs.eraseIdx n)
      (List.Sublist.refl _) ((List.eraseIdx_sublist _ _).cons_cons _)
  | take =>
    simp only [Late.step]
    split
    · rename_i ht
      have hA := h.ack
      rcases h.acks with ⟨a, b⟩ | ⟨a, b, -, -⟩
      · have hall : ∀ x ∈ s.out :: s.outs, x.txCnt = s.kept.txCnt := by
          intro x hx
          rcases List.mem_cons.1 hx with rfl | hx
          · rw [ht, a]
          · exact (List.pairwise_cons.1 h.order).1 x hx (by rw [ht, a])
        refine ⟨h.init, by show s.out.txCnt < 4; omega, h.data, ?_, h.same, h.order, .inr ⟨?_, hall, ?_, ?_⟩⟩
        · rw [← h.bytes]
          simp only [inFlight, lqueued]
          rw [if_neg (by omega), if_pos a, h.same _ List.mem_cons_self (by rw [ht, a]),
            List.append_nil]
        · show s.kept.txCnt ≠ (s.out.txCnt + 1) % 4
          omega
        · intro x hx
          exact .inr ⟨by rw [b x hx]; exact hA, by rw [b x hx]; exact a⟩
        · refine List.Pairwise.imp_of_mem (R := fun _ _ => True) ?_ (List.pairwise_of_forall (fun _ _ => trivial))
          intro x y hx hy _ hxa
          have := b x hx
          have hxa : x.txCntAck = s.out.txCnt := hxa
          omega
      · exact absurd ht (by rw [b _ List.mem_cons_self]; exact a)
    · exact h
  | post seg =>
    simp only [Late.step]
    split
    · exact ⟨h.init, h.ack, h.data, h.bytes, h.same, h.order, h.acks⟩
    · exact h
  | hide =>
    simp only [Late.step]
    split
    · exact ⟨h.init, h.ack, h.data, h.bytes, h.same, h.order, h.acks⟩
    · exact h
  | cycle =>
    have hS := h.inpAck List.mem_cons_self
    have hA := h.ack
    have hinit : ((s.p.next s.inp s.kept).1).initState = initStateOf (s.cycles + 1) :=
      next_initState _ _ _ _ h.init
    rcases late_next s.p s.inp s.kept hS h.data with ⟨e1, e2, e3, e4⟩ | ⟨d0, e1, e2, e3, e4⟩
    · simp only [Late.step]
      refine ⟨hinit, hA, e4, ?_, ?_, ?_, ?_⟩
      · rw [← h.bytes]
        simp only [inFlight, lqueued, e1, e2, e3]
      · simp only [e1, e2]
        intro x hx
        rw [← List.cons_append, List.mem_append, List.mem_singleton] at hx
        rcases hx with hx | rfl
        · exact h.same x hx
        · exact fun _ => e2
      · simp only [e1]
        rw [← List.cons_append, List.pairwise_append]
        refine ⟨h.order, List.pairwise_singleton _ _, fun x _ y hy _ => ?_⟩
        rw [List.mem_singleton.1 hy, e1]
      · simp only [e1]
        rcases h.acks with ⟨a, b⟩ | ⟨a, b, c, d⟩
        · exact .inl ⟨a, b⟩
        · refine .inr ⟨a, fun x hx => ?_, c, d⟩
          rw [← List.cons_append, List.mem_append, List.mem_singleton] at hx
          rcases hx with hx | rfl
          · exact b x hx
          · exact e1
    · rcases h.acks with ⟨a, b⟩ | ⟨a, b, c, d⟩
      · exact absurd a (by rw [b _ List.mem_cons_self] at e1; exact e1)
      · have hSA : s.inp.txCntAck = s.ack := by
          rcases c _ List.mem_cons_self with c | c
          · exact c
          · exact absurd c.2 e1
        rw [hSA] at e1 e2
        have hne : ∀ x ∈ s.out :: s.outs, x.txCnt ≠ (s.ack + 1) % 4 := fun x hx => by
          rw [b x hx]; exact a
        simp only [Late.step]
        refine ⟨hinit, hA, fun hd => absurd e3 hd, ?_, ?_, ?_, .inl ⟨e2, ?_⟩⟩
        · rw [← h.bytes]
          simp only [inFlight, lqueued, e2, e4, if_true, if_neg a, List.append_nil,
            List.flatten_cons, List.append_assoc]
        · simp only [e2]
          intro x hx hK
          rw [← List.cons_append, List.mem_append, List.mem_singleton] at hx
          rcases hx with hx | rfl
          · exact absurd hK (hne x hx)
          · rfl
        · simp only [e2]
          rw [← List.cons_append, List.pairwise_append]
          refine ⟨?_, List.pairwise_singleton _ _, fun x hx y hy hK => absurd hK (hne x hx)⟩
          refine List.Pairwise.imp_of_mem (R := fun _ _ => True) ?_ (List.pairwise_of_forall (fun _ _ => trivial))
          intro x y hx _ _ hK
          exact absurd hK (hne x hx)
        · intro x hx
          rcases List.mem_cons.1 hx with rfl | hx
          · exact hSA
          · exact (List.pairwise_cons.1 d).1 x hx hSA

theorem LTx.run {s : Late} (h : s.LTx) (evs : List LateEv) : (s.run evs).LTx := by
  induction evs generalizing s with
  | nil => exact h
  | cons e evs ih => exact ih (h.step e)

/-- The image shows the current segment of the device. -/
def Cur (s : Late) (a : RsIn) : Prop :=
  a.rxCnt = s.rxCnt ∧ ∃ pre, s.shown = pre ++ [a.data]

/-- The image shows the segment before the current one. -/
def Old (s : Late) (a : RsIn) : Prop :=
  a.rxCnt = (s.rxCnt + 3) % 4 ∧ ∃ pre l, s.shown = pre ++ [a.data] ++ [l]

/-- What holds of the receive direction. -/
structure LRx (s : Late) : Prop where
  init : s.p.initState = initStateOf s.cycles
  cnt : s.rxCnt < 4
  pos : s.shown ≠ []
  earlyPos : 2 ≤ s.cycles → 1 ≤ s.early
  snaps : ∀ a ∈ s.inp :: s.ins, s.Cur a ∨ (s.kept.rxCntAck ≠ s.rxCnt ∧ s.Old a)
  order : (s.inp :: s.ins).Pairwise fun a b => a.rxCnt = s.rxCnt → b.rxCnt = s.rxCnt
  vis : s.kept.rxCntAck ≠ s.rxCnt → 2 ≤ s.shown.length →
    (∀ a ∈ s.inp :: s.ins, a.rxCnt = s.rxCnt → a.dataAvailable = true) ∧ s.avail = true
  images : ∀ x ∈ s.out :: s.outs, x.rxCntAck = s.rxCnt → s.kept.rxCntAck = s.rxCnt
  iorder : (s.out :: s.outs).Pairwise fun x y => x.rxCntAck = s.rxCnt → y.rxCntAck = s.rxCnt
  none : s.cycles < 2 → s.delivered ++ s.p.inData = []
  store : 2 ≤ s.cycles →
    (s.p.lastRxCnt = 4 ∧ s.delivered ++ s.p.inData = [] ∧
      (s.kept.rxCntAck = s.rxCnt → s.shown.length ≤ s.early) ∧ s.shown.length ≤ s.early + 1) ∨
    (∃ pre got rest, s.shown = pre ++ got ++ rest ∧ pre.length ≤ s.early ∧ got ≠ [] ∧
      s.delivered ++ s.p.inData = got.flatten ∧
      (((∀ a ∈ s.inp :: s.ins, a.rxCnt = s.rxCnt) ∧ s.p.lastRxCnt = s.rxCnt ∧ rest = []) ∨
        (s.kept.rxCntAck ≠ s.rxCnt ∧ s.p.lastRxCnt = (s.rxCnt + 3) % 4 ∧ rest.length = 1)))

theorem LRx.initial {len : ProcessDataLength} {s : Late} (h : s.Initial len) : s.LRx := by
  obtain ⟨nf, rdy, hi⟩ := h.inp
  obtain ⟨l1, l2, l3, l4⟩ := h.logs
  obtain ⟨x, hx⟩ := List.length_eq_one_iff.1 h.shown
  refine ⟨by rw [h.p, l1]; rfl, h.rxCnt, by rw [hx]; simp, by rw [l1]; omega, ?_, ?_, ?_, ?_, ?_, ?_,
    by rw [l1]; omega⟩
  · rw [h.ins, hi]
    intro a ha
    rw [List.mem_singleton.1 ha]
    exact .inl ⟨rfl, [], by simp [Late.input, hx]⟩
  · rw [h.ins]; simp
  · rw [hx]; simp
  · rw [h.outs, h.kept]; simp
  · rw [h.outs]; simp
  · intro _
    simp [l4, h.p, MessageProcessor.new]

/-- Images that arrive or get lost. -/
theorem LRx.mono {s : Late} (h : s.LRx) {inp : RsIn} {ins : List RsIn} {out : RsOut}
    {outs : List RsOut} (hi : (inp :: ins).Sublist (s.inp :: s.ins))
    (ho : (out :: outs).Sublist (s.out :: s.outs)) :
    ({ s with inp := inp, ins := ins, out := out, outs := outs } : Late).LRx :=
  ⟨h.init, h.cnt, h.pos, h.earlyPos, fun a ha => h.snaps a (hi.subset ha), h.order.sublist hi,
    fun h1 h2 => ⟨fun a ha => (h.vis h1 h2).1 a (hi.subset ha), (h.vis h1 h2).2⟩,
    fun x hx => h.images x (ho.subset hx), h.iorder.sublist ho, h.none, fun h2 => by
      rcases h.store h2 with b | ⟨pre, got, rest, b1, b2, b3, b4, ⟨c1, c2⟩ | c⟩
      · exact .inl b
      · exact .inr ⟨pre, got, rest, b1, b2, b3, b4, .inl ⟨fun a ha => c1 a (hi.subset ha), c2⟩⟩
      · exact .inr ⟨pre, got, rest, b1, b2, b3, b4, .inr c⟩⟩

theorem late_last {l : List (List Byte)} (h : l ≠ []) : ∃ pre, l = pre ++ [l.getLast?.getD []] :=
  ⟨l.dropLast, by
    rw [List.getLast?_eq_some_getLast h]
    simp [List.dropLast_append_getLast h]⟩

/-- What a cycle does to the receive direction. -/
theorem late_rx (p : MessageProcessor) (i : RsIn) (o : RsOut) :
    (p.initState ≠ .done → (p.next i o).1.inData = p.inData ∧
      ((p.next i o).1.initState = .done → (p.next i o).1.lastRxCnt = 4)) ∧
    (p.initState = .done → i.dataAvailable = true → p.lastRxCnt ≠ i.rxCnt →
      (p.next i o).1.inData = p.inData ++ i.data ∧ (p.next i o).1.lastRxCnt = i.rxCnt) ∧
    (p.initState = .done → i.dataAvailable = false ∨ p.lastRxCnt = i.rxCnt →
      (p.next i o).1.inData = p.inData ∧ (p.next i o).1.lastRxCnt = p.lastRxCnt) := by
  refine ⟨fun h => ?_, fun h ha hl => ?_, fun h ha => ?_⟩
  · cases hs : p.initState with
    | clearBuffers => rw [next_clear _ _ _ hs]; simp
    | reset => rw [next_reset _ _ _ hs]; simp
    | done => exact absurd hs h
  · obtain ⟨f1, f2, -, -⟩ := nextTx_frame p i o
    obtain ⟨g1, g2⟩ := nextRx_take (p.nextTx i o).1 i ha (by rw [f2]; exact hl)
    rw [next_done _ _ _ h]
    exact ⟨by rw [g1, f1], g2⟩
  · obtain ⟨f1, f2, -, -⟩ := nextTx_frame p i o
    have g := nextRx_skip (p.nextTx i o).1 i (by rw [f2]; exact ha)
    rw [next_done _ _ _ h]
    exact ⟨by rw [g, f1], by rw [g, f2]⟩

theorem initStateOf_done {n : Nat} : initStateOf n = .done ↔ 2 ≤ n := by
  match n with
  | 0 => simp [initStateOf]
  | 1 => simp [initStateOf]
  | n + 2 => simp [initStateOf]

theorem LRx.step {s : Late} (h : s.LRx) (e : LateEv) : (s.step e).LRx := by
  cases e with
  | write buf =>
    exact ⟨h.init, h.cnt, h.pos, h.earlyPos, h.snaps, h.order, h.vis, h.images, h.iorder, h.none, h.store⟩
  | read n =>
    simp only [Late.step, read_ok]
    have hb : s.delivered ++ s.p.inData.take n ++ s.p.inData.drop n = s.delivered ++ s.p.inData := by
      rw [List.append_assoc, List.take_append_drop]
    refine ⟨h.init, h.cnt, h.pos, h.earlyPos, h.snaps, h.order, h.vis, h.images, h.iorder, ?_, ?_⟩
    · simpa only [hb] using h.none
    · simpa only [hb] using h.store
  | sample nf rdy =>
    refine ⟨h.init, h.cnt, h.pos, h.earlyPos, ?_, ?_, ?_, h.images, h.iorder, h.none, ?_⟩
    · intro x hx
      simp only [Late.step] at hx ⊢
      rw [← List.cons_append, List.mem_append, List.mem_singleton] at hx
      rcases hx with hx | rfl
      · exact h.snaps x hx
      · exact .inl ⟨rfl, late_last h.pos⟩
    · simp only [Late.step]
      rw [← List.cons_append, List.pairwise_append]
      refine ⟨h.order, List.pairwise_singleton _ _, fun x _ y hy _ => ?_⟩
      rw [List.mem_singleton.1 hy]
      rfl
    · intro h1 h2
      refine ⟨fun x hx => ?_, (h.vis h1 h2).2⟩
      simp only [Late.step] at hx ⊢
      rw [← List.cons_append, List.mem_append, List.mem_singleton] at hx
      rcases hx with hx | rfl
      · exact (h.vis h1 h2).1 x hx
      · exact fun _ => (h.vis h1 h2).2
    · intro h2
      rcases h.store h2 with b | ⟨pre, got, rest, b1, b2, b3, b4, ⟨c1, c2⟩ | c⟩
      · exact .inl b
      · refine .inr ⟨pre, got, rest, b1, b2, b3, b4, .inl ⟨fun x hx => ?_, c2⟩⟩
        simp only [Late.step] at hx ⊢
        rw [← List.cons_append, List.mem_append, List.mem_singleton] at hx
        rcases hx with hx | rfl
        · exact c1 x hx
        · rfl
      · exact .inr ⟨pre, got, rest, b1, b2, b3, b4, .inr c⟩
  | arrive =>
    simp only [Late.step]
    split
    · rename_i i ins hins
      exact h.mono (by rw [hins]; exact List.sublist_cons_self _ _) (List.Sublist.refl _)
    · exact h
  | loseIn n =>
    exact h.mono (inp := s.inp) (ins := s.ins.eraseIdx n) (out := s.out) (outs := s.outs)
      ((List.eraseIdx_sublist _ _).cons_cons _) (List.Sublist.refl _)
  | again =>
    refine ⟨h.init, h.cnt, h.pos, h.earlyPos, h.snaps, h.order, h.vis, ?_, ?_, h.none, h.store⟩
    · intro x hx
      simp only [Late.step] at hx ⊢
      rw [← List.cons_append, List.mem_append, List.mem_singleton] at hx
      rcases hx with hx | rfl
      · exact h.images x hx
      · exact id
    · simp only [Late.step]
      rw [← List.cons_append, List.pairwise_append]
      refine ⟨h.iorder, List.pairwise_singleton _ _, fun x hx y hy hk => ?_⟩
      rw [List.mem_singleton.1 hy]
      exact h.images x hx hk
  | deliver =>
    simp only [Late.step]
    split
    · rename_i o outs houts
      exact h.mono (List.Sublist.refl _) (by rw [houts]; exact List.sublist_cons_self _ _)
    · exact h
  | loseOut n =>
    exact h.mono (inp := s.inp) (ins := s.ins) (out := s.out) (outs := s.outs.eraseIdx n)
      (List.Sublist.refl _) ((List.eraseIdx_sublist _ _).cons_cons _)
  | take =>
    simp only [Late.step]
    split
    · exact ⟨h.init, h.cnt, h.pos, h.earlyPos, h.snaps, h.order, h.vis, h.images, h.iorder, h.none, h.store⟩
    · exact h
  | hide =>
    simp only [Late.step]
    split
    · rename_i ha
      have hk := h.images _ List.mem_cons_self ha
      exact ⟨h.init, h.cnt, h.pos, h.earlyPos, h.snaps, h.order, fun h1 => absurd hk h1, h.images,
        h.iorder, h.none, h.store⟩
    · exact h
  | post seg =>
    simp only [Late.step]
    split
    · rename_i ha
      have hk := h.images _ List.mem_cons_self ha
      have hc := h.cnt
      have hne : s.rxCnt ≠ (s.rxCnt + 1) % 4 := by omega
      have hprev : ((s.rxCnt + 1) % 4 + 3) % 4 = s.rxCnt := by omega
      have hcur : ∀ a ∈ s.inp :: s.ins, s.Cur a := fun a hm => by
        rcases h.snaps a hm with hs | hs
        · exact hs
        · exact absurd hk hs.1
      have hall : ∀ x ∈ s.out :: s.outs, x.rxCntAck = s.rxCnt := by
        intro x hx
        rcases List.mem_cons.1 hx with rfl | hx
        · exact ha
        · exact (List.pairwise_cons.1 h.iorder).1 x hx ha
      refine ⟨h.init, by show (s.rxCnt + 1) % 4 < 4; omega, by simp, h.earlyPos, ?_, ?_, ?_, ?_, ?_,
        h.none, ?_⟩
      · intro a hm
        refine .inr ⟨by show s.kept.rxCntAck ≠ (s.rxCnt + 1) % 4; rw [hk]; exact hne, ?_, ?_⟩
        · show a.rxCnt = ((s.rxCnt + 1) % 4 + 3) % 4
          rw [hprev]
          exact (hcur a hm).1
        · obtain ⟨pre, hp⟩ := (hcur a hm).2
          exact ⟨pre, seg, by show s.shown ++ [seg] = _; rw [hp]⟩
      · refine List.Pairwise.imp_of_mem (R := fun _ _ => True) ?_ (List.pairwise_of_forall (fun _ _ => trivial))
        intro a b hm _ _ hx
        exact absurd ((hcur a hm).1.symm.trans hx) hne
      · intro _ _
        refine ⟨fun a hm hx => absurd ((hcur a hm).1.symm.trans hx) hne, rfl⟩
      · intro x hx hxa
        exact absurd ((hall x hx).symm.trans hxa) hne
      · refine List.Pairwise.imp_of_mem (R := fun _ _ => True) ?_ (List.pairwise_of_forall (fun _ _ => trivial))
        intro a b hm _ _ hx
        exact absurd ((hall a hm).symm.trans hx) hne
      · intro h2
        rcases h.store h2 with ⟨a1, a2, a3, a4⟩ | ⟨pre, got, rest, b1, b2, b3, b4, b5⟩
        · refine .inl ⟨a1, a2, fun hx => absurd (hk.symm.trans hx) hne, ?_⟩
          have := a3 hk
          simp only [List.length_append, List.length_singleton]
          omega
        · rcases b5 with ⟨c1, c2, c3⟩ | ⟨c1, -⟩
          · subst c3
            refine .inr ⟨pre, got, [seg], ?_, b2, b3, b4, .inr ⟨?_, ?_, rfl⟩⟩
            · show s.shown ++ [seg] = _
              rw [b1]; simp
            · show s.kept.rxCntAck ≠ _
              rw [hk]; exact hne
            · show s.p.lastRxCnt = _
              rw [c2, hprev]
          · exact absurd hk c1
    · exact h
  | cycle =>
    have hc := h.cnt
    have hprev : (s.rxCnt + 3) % 4 ≠ s.rxCnt := by omega
    have hka : (s.p.next s.inp s.kept).2.rxCntAck = s.inp.rxCnt := rfl
    have hinit : ((s.p.next s.inp s.kept).1).initState = initStateOf (s.cycles + 1) :=
      next_initState _ _ _ _ h.init
    have hAA : s.kept.rxCntAck = s.rxCnt → s.inp.rxCnt = s.rxCnt := fun hk => by
      rcases h.snaps _ List.mem_cons_self with hs | hs
      · exact hs.1
      · exact absurd hk hs.1
    have hsn : ∀ a ∈ s.inp :: s.ins, s.Cur a ∨ (s.inp.rxCnt ≠ s.rxCnt ∧ s.Old a) := fun a ha => by
      rcases h.snaps a ha with hs | hs
      · exact .inl hs
      · by_cases hi : s.inp.rxCnt = s.rxCnt
        · exfalso
          apply hprev
          rw [← hs.2.1]
          rcases List.mem_cons.1 ha with rfl | ha
          · exact hi
          · exact (List.pairwise_cons.1 h.order).1 a ha hi
        · exact .inr ⟨hi, hs.2⟩
    have hcur : s.inp.rxCnt = s.rxCnt → ∀ a ∈ s.inp :: s.ins, a.rxCnt = s.rxCnt := fun hi a ha => by
      rcases List.mem_cons.1 ha with rfl | ha
      · exact hi
      · exact (List.pairwise_cons.1 h.order).1 a ha hi
    obtain ⟨rx1, rx2, rx3⟩ := late_rx s.p s.inp s.kept
    simp only [Late.step]
    refine ⟨hinit, hc, h.pos, ?_, ?_, h.order, ?_, ?_, ?_, ?_, ?_⟩
    · intro _
      show 1 ≤ if s.cycles < 2 then s.shown.length else s.early
      split
      · exact List.length_pos_iff.2 h.pos
      · exact h.earlyPos (by omega)
    · intro a ha
      simp only [hka]
      exact hsn a ha
    · simp only [hka]
      exact fun h1 h2 => h.vis (fun hk => h1 (hAA hk)) h2
    · simp only [hka]
      intro x hx hxa
      rw [← List.cons_append, List.mem_append, List.mem_singleton] at hx
      rcases hx with hx | rfl
      · exact hAA (h.images x hx hxa)
      · rw [← hka]; exact hxa
    · rw [← List.cons_append, List.pairwise_append]
      refine ⟨h.iorder, List.pairwise_singleton _ _, fun x hx y hy hxa => ?_⟩
      rw [List.mem_singleton.1 hy, hka]
      exact hAA (h.images x hx hxa)
    · intro h2
      have h2 : s.cycles + 1 < 2 := h2
      have := h.none (by omega)
      rw [(rx1 (by rw [h.init]; intro hd; rw [initStateOf_done] at hd; omega)).1]
      exact this
    · intro h2
      have h2 : 2 ≤ s.cycles + 1 := h2
      simp only [hka]
      by_cases hdone : 2 ≤ s.cycles
      · have hd : s.p.initState = .done := by rw [h.init, initStateOf_done]; exact hdone
        rw [if_neg (by omega)]
        have hep := h.earlyPos hdone
        have hin := hsn _ List.mem_cons_self
        have hcases : s.kept.rxCntAck = s.rxCnt ∨ s.kept.rxCntAck ≠ s.rxCnt := em _
        have hlen : s.shown.length ≥ 1 := List.length_pos_iff.2 h.pos
        rcases h.store hdone with ⟨a1, a2, a3, a4⟩ | ⟨pre, got, rest, b1, b2, b3, b4, b5⟩
        · rcases hin with ⟨i1, pre, i2⟩ | ⟨i1, i2, pre, l, i3⟩
          · have hl : s.p.lastRxCnt ≠ s.inp.rxCnt := by omega
            cases hav : s.inp.dataAvailable with
            | true =>
              obtain ⟨r1, r2⟩ := rx2 hd hav hl
              rw [r1, r2]
              refine .inr ⟨pre, [s.inp.data], [], by rw [i2]; simp, ?_, by simp, ?_,
                .inl ⟨hcur i1, i1, rfl⟩⟩
              · rw [i2, List.length_append, List.length_singleton] at a4
                omega
              · rw [← List.append_assoc, a2]; simp
            | false =>
              obtain ⟨r1, r2⟩ := rx3 hd (.inl hav)
              rw [r1, r2]
              refine .inl ⟨a1, a2, fun _ => ?_, a4⟩
              rcases hcases with hk | hk
              · exact a3 hk
              · by_cases hlen2 : 2 ≤ s.shown.length
                · have := (h.vis hk hlen2).1 _ List.mem_cons_self i1
                  rw [hav] at this
                  cases this
                · omega
          · cases hav : s.inp.dataAvailable with
            | true =>
              have hl : s.p.lastRxCnt ≠ s.inp.rxCnt := by omega
              obtain ⟨r1, r2⟩ := rx2 hd hav hl
              rw [r1, r2]
              refine .inr ⟨pre, [s.inp.data], [l], by rw [i3], ?_, by simp, ?_, .inr ⟨i1, i2, rfl⟩⟩
              · rw [i3] at a4
                simp only [List.length_append, List.length_singleton] at a4
                omega
              · rw [← List.append_assoc, a2]; simp
            | false =>
              obtain ⟨r1, r2⟩ := rx3 hd (.inl hav)
              rw [r1, r2]
              exact .inl ⟨a1, a2, fun hx => absurd hx i1, a4⟩
        · rcases b5 with ⟨c1, c2, c3⟩ | ⟨c1, c2, c3⟩
          · obtain ⟨r1, r2⟩ := rx3 hd (.inr (by rw [c2, c1 _ List.mem_cons_self]))
            rw [r1, r2]
            exact .inr ⟨pre, got, rest, b1, b2, b3, b4, .inl ⟨c1, c2, c3⟩⟩
          · obtain ⟨x, hx⟩ := List.length_eq_one_iff.1 c3
            subst hx
            rcases hin with ⟨i1, pre', i2⟩ | ⟨i1, i2, -⟩
            · have hlen2 : 2 ≤ s.shown.length := by
                rw [b1]
                have := List.length_pos_iff.2 b3
                simp only [List.length_append, List.length_singleton]
                omega
              have hav := (h.vis c1 hlen2).1 _ List.mem_cons_self i1
              obtain ⟨r1, r2⟩ := rx2 hd hav (by omega)
              rw [r1, r2]
              have hx : x = s.inp.data := by
                have := i2.symm.trans b1
                exact (List.append_inj' this.symm (by simp)).2 |> List.head_eq_of_cons_eq
              subst hx
              refine .inr ⟨pre, got ++ [s.inp.data], [], by rw [b1]; simp, b2, by simp, ?_,
                .inl ⟨hcur i1, i1, rfl⟩⟩
              rw [← List.append_assoc, b4]; simp
            · obtain ⟨r1, r2⟩ := rx3 hd (.inr (by rw [c2, i2]))
              rw [r1, r2]
              exact .inr ⟨pre, got, [x], b1, b2, b3, b4, .inr ⟨i1, c2, rfl⟩⟩
      · rw [if_pos (by omega)]
        have hnd : s.p.initState ≠ .done := by
          rw [h.init, Ne, initStateOf_done]; exact hdone
        obtain ⟨r1, r2⟩ := rx1 hnd
        refine .inl ⟨r2 (by rw [hinit, initStateOf_done]; exact h2), ?_, fun _ => Nat.le_refl _, by omega⟩
        rw [r1]
        exact h.none (by omega)

theorem LRx.run {s : Late} (h : s.LRx) (evs : List LateEv) : (s.run evs).LRx := by
  induction evs generalizing s with
  | nil => exact h
  | cons e evs ih => exact ih (h.step e)

end Spec.Late

end Ur20
