import Verif.Props.Lost
import Verif.Props.Network
import Verif.Spec.LostNet

/-!
# C142: exactly which bytes are lost on the way to any number of serial devices
-/

namespace Ur20

open Spec Com Coupler
open scoped List

namespace Spec

namespace Sys

/-- A cycle takes its new segment from the front of the queue. -/
theorem start_queue {s : Sys} (hu : s.UInv) (hp : s.pending = none) (nf rdy : Bool) :
    s.p.outData = (s.step (.start nf rdy)).newSegment ++ (s.step (.start nf rdy)).p.outData := by
  have hi := hu.init
  have key : s.p.outData = (newSegment { s with
        p := (s.p.next (s.input nf rdy) s.out).1
        pending := some (s.p.next (s.input nf rdy) s.out).2
        cycles := s.cycles + 1 }) ++ (s.p.next (s.input nf rdy) s.out).1.outData := by
    match hc : s.cycles with
    | 0 =>
      rw [hc] at hi
      rw [next_clear _ _ _ hi]
      simp [newSegment]
    | 1 =>
      rw [hc] at hi
      rw [next_reset _ _ _ hi]
      simp [newSegment]
    | n + 2 =>
      rw [hc] at hi
      rw [next_done _ _ _ hi]
      by_cases hbusy : incCnt s.ack = s.out.txCnt
      · rw [nextTx_busy _ _ _ (by simpa [input] using hbusy)]
        simp [newSegment, (nextRx_frame _ _).1]
      · cases hq : s.p.outData with
        | nil =>
          rw [nextTx_nil _ _ _ hq]
          simp [newSegment, (nextRx_frame _ _).1, hq]
        | cons c cs =>
          rw [nextTx_send _ _ _ c cs hq (by simpa [input] using hbusy)]
          simp [newSegment, input, hbusy, (nextRx_frame _ _).1]
  simp only [Sys.step, hp, Option.isSome_none, Bool.false_eq_true, if_false]
  split <;> exact key

/-- The segment a cycle takes, computed from the bytes in the queue before and after it. -/
theorem start_taken {len : ProcessDataLength} {s : Sys} (hu : s.UInv) (hf : s.Fits len)
    (hp : s.pending = none) (nf rdy : Bool) :
    (s.step (.start nf rdy)).newSegment =
      if (s.step (.start nf rdy)).p.outData.flatten.length < s.p.outData.flatten.length then
        [s.p.outData.flatten.take (s.p.outData.flatten.length -
          (s.step (.start nf rdy)).p.outData.flatten.length)]
      else [] := by
  have h1 := start_queue hu hp nf rdy
  have h2 := (hf.step hu (.start nf rdy)).lostIn (hu.step (.start nf rdy)) .lost
  have h3 := (s.step (.start nf rdy)).newSegment_length
  simp only [Sys.lostIn] at h2
  rw [h1]
  generalize (s.step (.start nf rdy)).newSegment = n at h2 h3 ⊢
  match n, h3 with
  | [], _ => simp
  | [seg], _ =>
    have := List.length_pos_of_ne_nil (h2 seg (by simp)).1
    simp [this]

theorem Fits.urun {len : ProcessDataLength} {s : Sys} (hu : s.UInv) (h : s.Fits len)
    (evs : List UEv) : (s.urun len evs).Fits len := by
  induction evs generalizing s with
  | nil => exact h
  | cons e evs ih => exact ih (hu.ustep (len := len) e) (h.ustep hu e)

end Sys

namespace Net

theorem newSegment_at {cfg : CouplerConfig} {oc : Bool} {w : Wiring} {s : Net} {j : Nat} {t : Sys}
    (h : Sending.QSim oc cfg j (w.wire j).len (w.wire j).oi (w.wire j).oo (s.at_ j) t) :
    s.newSegment w j = t.newSegment := h.sim.same_new

theorem queue_at {cfg : CouplerConfig} {oc : Bool} {w : Wiring} {s : Net} {j : Nat} {t : Sys}
    (h : Sending.QSim oc cfg j (w.wire j).len (w.wire j).oi (w.wire j).oo (s.at_ j) t) :
    s.queue j = t.p.outData := h.sim.same_queue

theorem queued_at {cfg : CouplerConfig} {oc : Bool} {w : Wiring} {s : Net} {j : Nat} {t : Sys}
    (h : Sending.QSim oc cfg j (w.wire j).len (w.wire j).oi (w.wire j).oo (s.at_ j) t) :
    s.queued j = t.queued := h.sim.same_queued

/-- What a step of the network loses the system loses. -/
theorem step_lost {oc : Bool} {cfg : CouplerConfig} {w : Wiring} {c0 : Coupler}
    (h0 : Coupler.new cfg = .ok c0) {j : Nat} (hj : j ∈ w.modules)
    (hs0 : SerialAt c0 j (w.wire j).len (w.wire j).oi (w.wire j).oo)
    (hd0 : BytesKept (infos c0) j) {s : Net} {t : Sys} (hu : t.UInv)
    (hf : t.Fits (w.wire j).len)
    (h : Sending.QSim oc cfg j (w.wire j).len (w.wire j).oi (w.wire j).oo (s.at_ j) t) (e : NEv) :
    ∃ evs, Sending.QSim oc cfg j (w.wire j).len (w.wire j).oi (w.wire j).oo
        ((s.step oc cfg w e).at_ j) (t.urun (w.wire j).len evs) ∧
      (e ≠ .crash → NoCrash evs) ∧ lostImages evs ≤ lostOrFailedN [e] ∧
      t.lostSegments (w.wire j).len evs = s.lostIn oc cfg w j e := by
  have hl : ∀ es : List Ev, lostImages (es.map .ev) = 0 := by
    intro es
    induction es with
    | nil => rfl
    | cons e es ih => simpa [lostImages] using ih
  rcases step_at_events (oc := oc) (cfg := cfg) hj s e with ⟨h1, n1, n2, n3⟩ |
    ⟨e', h1, -, -, -, k1, k2, k3, k4⟩
  · refine ⟨[], by rw [h1]; exact h, fun _ e he => (by cases he), by simp [lostImages], ?_⟩
    cases e with
    | finish => exact absurd rfl n1
    | lost => exact absurd rfl n2
    | crash => exact absurd rfl (n3 c0 h0)
    | failing pi =>
      have hc : (s.step oc cfg w (.failing pi)).cycles = s.cycles :=
        congrArg (fun x => x.plant.cycles) h1
      simp only [lostIn]
      rw [if_neg (by omega)]
      rfl
    | _ => rfl
  · obtain ⟨evs, g1, g2, -, -, -, g3⟩ := h.step_events h0 hs0 hd0 e'
    rw [← h1] at g1 g3
    refine ⟨evs, g1, fun hc => g2 fun h => hc (k3.1 h), ?_⟩
    rcases g3 with ⟨he, rfl⟩ | ⟨he, rfl⟩ | ⟨he, rfl⟩ | ⟨pi, he, hp, hcy, nf, rdy, rfl⟩ |
      ⟨n1, n2, n3, es, hes, rfl, hcy⟩
    · cases k1.1 he
      refine ⟨by simp [lostImages, lostOrFailedN], ?_⟩
      have e1 := h.sim.same_pending
      have e2 := h.sim.out
      have e3 := h.sim.ack
      simp only [Plant.cleared, at_] at e1 e2 e3
      simp only [Sys.lostSegments, Sys.lostIn, lostIn, List.append_nil, e1, e2, e3]
      cases t.pending <;> rfl
    · cases k2.1 he
      refine ⟨by simp [lostImages, lostOrFailedN], ?_⟩
      simp only [Sys.lostSegments, Sys.lostIn, lostIn, List.append_nil, newSegment_at h]
    · cases k3.1 he
      refine ⟨by simp [lostImages], ?_⟩
      simp only [Sys.lostSegments, Sys.lostIn, lostIn, List.append_nil, newSegment_at h, queue_at h]
    · cases (k4 pi).1 he
      refine ⟨by rw [Plant.lostImages_append, hl]; simp [lostImages, lostOrFailedN], ?_⟩
      have hfe : Ev.finish ∉ Sending.feedEvs (s.at_ j).waiting := by
        unfold Sending.feedEvs
        split <;> simp
      have hcy : (s.step oc cfg w (.failing pi)).cycles = s.cycles + 1 := hcy
      simp only [lostIn, hcy, true_and]
      rw [queued_at g1, queued_at h, Sys.lostSegments_append, Sys.lostSegments_ev _ _ _ hfe,
        urun_append]
      have hu' := hu.urun (len := (w.wire j).len) ((Sending.feedEvs (s.at_ j).waiting).map .ev)
      have hf' := hf.urun hu ((Sending.feedEvs (s.at_ j).waiting).map .ev)
      have hp' : (t.urun (w.wire j).len ((Sending.feedEvs (s.at_ j).waiting).map .ev)).pending =
          none := by
        rw [run_urun, Sending.feed_run]
        exact hp
      have hq : (t.urun (w.wire j).len
          ((Sending.feedEvs (s.at_ j).waiting).map .ev)).p.outData.flatten =
          t.queued ++ sentBytes (s.line j).waiting := by
        rw [run_urun, Sending.feed_run]
        simp only [at_]
        cases (s.line j).waiting with
        | none => simp [feed, sentBytes, Sys.queued]
        | some v => cases v <;> simp [feed, sentBytes, Sys.queued]
      have := Sys.start_taken hu' hf' hp' nf rdy
      rw [hq] at this
      simpa [Sys.lostSegments, Sys.lostIn, Sys.urun, Sys.ustep, Sys.queued] using this
    · refine ⟨by rw [hl]; simp, ?_⟩
      rw [Sys.lostSegments_ev _ t es hes]
      cases e with
      | finish => exact absurd (k1.2 rfl) n1
      | lost => exact absurd (k2.2 rfl) n2
      | crash => exact absurd (k3.2 rfl) n3
      | failing pi =>
        have : (s.step oc cfg w (.failing pi)).cycles = s.cycles := hcy pi ((k4 pi).2 rfl)
        simp only [lostIn]
        rw [if_neg (by omega)]
      | _ => rfl

theorem run_lost {oc : Bool} {cfg : CouplerConfig} {w : Wiring} {c0 : Coupler}
    (h0 : Coupler.new cfg = .ok c0) {j : Nat} (hj : j ∈ w.modules)
    (hs0 : SerialAt c0 j (w.wire j).len (w.wire j).oi (w.wire j).oo)
    (hd0 : BytesKept (infos c0) j) {s : Net} {t : Sys} (hu : t.UInv)
    (hf : t.Fits (w.wire j).len)
    (h : Sending.QSim oc cfg j (w.wire j).len (w.wire j).oi (w.wire j).oo (s.at_ j) t)
    (nevs : List NEv) :
    ∃ evs, Sending.QSim oc cfg j (w.wire j).len (w.wire j).oi (w.wire j).oo
        ((s.run oc cfg w nevs).at_ j) (t.urun (w.wire j).len evs) ∧
      (NoCrashesN nevs → NoCrash evs) ∧ lostImages evs ≤ lostOrFailedN nevs ∧
      t.lostSegments (w.wire j).len evs = s.lostSegments oc cfg w j nevs := by
  induction nevs generalizing s t with
  | nil => exact ⟨[], h, fun _ e he => (by cases he), by simp [lostImages, lostOrFailedN], rfl⟩
  | cons e nevs ih =>
    obtain ⟨evs1, h1, n1, m1, l1⟩ := step_lost h0 hj hs0 hd0 hu hf h e
    obtain ⟨evs2, h2, n2, m2, l2⟩ := ih (hu.urun (len := (w.wire j).len) evs1) (hf.urun hu evs1) h1
    refine ⟨evs1 ++ evs2, ?_, ?_, ?_, ?_⟩
    · rw [urun_append]; exact h2
    · intro hn x hx
      rcases List.mem_append.1 hx with hx | hx
      · exact n1 (hn _ List.mem_cons_self) x hx
      · exact n2 (fun y hy => hn y (List.mem_cons_of_mem _ hy)) x hx
    · rw [Plant.lostImages_append]
      cases e <;> simp only [lostOrFailedN] at m1 ⊢ <;> omega
    · rw [Sys.lostSegments_append, l1, l2]
      rfl

end Net

end Spec

/-- C142: with any number of serial devices, whatever is set on their modules, whatever cycles fail,
whatever images are lost and wherever the application crashes: the bytes written to a module, or set
on it and taken by a cycle, divide into pieces in this order. Those that are kept are what the device
has taken over, what is in flight and what is queued; those that are not kept are the segments the
schedule loses. Each of these fits into a frame, and without crashes there are not more of them than
lost images and failing cycles. -/
theorem C142_exact (oc : Bool) (cfg : CouplerConfig) (w : Wiring) (s : Net) (h : s.Initial cfg w)
    (evs : List NEv) (j : Nat) (hj : j ∈ w.modules) :
    let r := s.run oc cfg w evs
    let lost := s.lostSegments oc cfg w j evs
    (∃ l : Pieces, l.all = (r.line j).written ∧
      l.kept = (r.line j).received ++ r.inFlight w j ++ r.queued j ∧ l.gone ~ lost) ∧
    (∀ seg ∈ lost, 1 ≤ seg.length ∧ seg.length ≤ capacity (w.wire j).len) ∧
    (NoCrashesN evs → lost.length ≤ lostOrFailedN evs) := by
  obtain ⟨hi, ha⟩ := Net.initial_at h hj
  obtain ⟨t, h1, h2⟩ := hi.sim
  have hw : (s.at_ j).plant.c.write ⟨j, 0⟩ = none := h2.write
  have hq : Sending.QSim oc cfg j (w.wire j).len (w.wire j).oi (w.wire j).oo (s.at_ j) t := by
    rw [ha]
    exact ⟨by rw [Sending.cleared_eq hw]; exact h2, ⟨s.c, [], h.c, rfl⟩, hw⟩
  obtain ⟨tevs, g1, g2, g3, g4⟩ := Net.run_lost h.c hj (h.serial j hj) (h.disjoint j hj)
    (Sys.UInv.initial h1) (Sys.Fits.initial h1) hq evs
  simp only
  have e1 : (s.run oc cfg w evs).queued j = _ := g1.sim.same_queued
  have e2 : (s.run oc cfg w evs).inFlight w j = _ := g1.sim.same_inFlight
  have e3 : _ = ((s.run oc cfg w evs).line j).received := g1.sim.received
  have e4 : _ = ((s.run oc cfg w evs).line j).written := g1.sim.written
  rw [← g4, e1, e2, ← e3, ← e4]
  exact ⟨C141_processor h1 tevs, (C141_bound h1 tevs).1,
    fun hc => le_trans ((C141_bound h1 tevs).2 (g2 hc)) g3⟩

/-- Both modules lose the first segment with a lost image, and what is left with a crash. -/
def exDuoLosses : List NEv :=
  exDuoEvs ++ [.start [0#16, 0#16, 0#16, 0#16, 0x0109#16, 0x0041#16, 0#16, 0#16], .lost,
    .set 2 (.bytes [10#8]), .start [0#16, 0#16, 0#16, 0#16, 0x0109#16, 0x0041#16, 0#16, 0#16],
    .finish, .take 1, .crash]

example : exNet.lostSegments true exDuo exWires 1 exDuoLosses =
      [[1#8, 2#8, 3#8, 4#8, 5#8, 6#8]] ∧
    exNet.lostSegments true exDuo exWires 2 exDuoLosses = [[8#8, 9#8]] := by
  simp only [exDuoLosses, exDuoEvs, List.cons_append, List.nil_append, Net.lostSegments, Net.lostIn]
  decide +kernel

example := C142_exact true exDuo exWires exNet exNet_initial exDuoLosses 1 (by decide)

theorem exDuo_decodable :
    Decodable exDuo (List.replicate 8 0#16)
      [0#16, 0x0080#16, 0#16, 0#16, 0#16, 0x0080#16, 0#16, 0#16, 0#16] := by
  constructor
  · intro j t par o i h hn
    rcases exDuo_at h with ⟨rfl, rfl, rfl, rfl, rfl⟩ | ⟨rfl, rfl, rfl, rfl, rfl⟩ |
      ⟨rfl, rfl, rfl, rfl, rfl⟩
    · exact absurd rfl hn
    · exact ⟨by unfold HasRegisters; decide, fun _ b hb => by
        rw [show byteAt _ _ = some 0#8 by decide] at hb
        cases hb; decide⟩
    · exact ⟨by unfold HasRegisters; decide, fun _ b hb => by
        rw [show byteAt _ _ = some 0#8 by decide] at hb
        cases hb; decide⟩
  · intro j t par o i h hn
    rcases exDuo_at h with ⟨rfl, rfl, rfl, rfl, rfl⟩ | ⟨rfl, rfl, rfl, rfl, rfl⟩ |
      ⟨rfl, rfl, rfl, rfl, rfl⟩
    · exact ⟨by decide, by unfold HasRegisters; decide, fun h => by cases h⟩
    · refine ⟨by decide, by unfold HasRegisters; decide, fun _ b hb => ?_⟩
      rw [show byteAt _ _ = some 0#8 by decide] at hb
      cases hb; decide
    · refine ⟨by decide, by unfold HasRegisters; decide, fun _ b hb => ?_⟩
      rw [show byteAt _ _ = some 0#8 by decide] at hb
      cases hb; decide

def exDuoWrong : List NEv :=
  [.start (List.replicate 8 0#16), .finish, .start (List.replicate 8 0#16), .finish,
    .write 1 [1#8], .set 2 (.bytes [8#8, 9#8]), .other (.setOutput ⟨0, 0⟩ (.bytes []))]

/-- A cycle that fails because of the value for the digital outputs loses what was written to one
serial module and what was set on the other. -/
example :
    (exNet.run true exDuo exWires exDuoWrong).lostIn true exDuo exWires 1
      (.failing (List.replicate 8 0#16)) = [[1#8]] ∧
    (exNet.run true exDuo exWires exDuoWrong).lostIn true exDuo exWires 2
      (.failing (List.replicate 8 0#16)) = [[8#8, 9#8]] := by
  have ho : (exNet.run true exDuo exWires exDuoWrong).out =
      [0#16, 0x0080#16, 0#16, 0#16, 0#16, 0x0080#16, 0#16, 0#16, 0#16] := by decide +kernel
  have hp : (exNet.run true exDuo exWires exDuoWrong).pending = none := by decide +kernel
  have hc : (exNet.run true exDuo exWires exDuoWrong).cycles = 2 := by decide +kernel
  have hs : (exNet.run true exDuo exWires exDuoWrong).Shows exWires (List.replicate 8 0#16) := by
    decide +kernel
  have hn : ∃ c', (exNet.run true exDuo exWires exDuoWrong).c.next true (List.replicate 8 0#16)
        [0#16, 0x0080#16, 0#16, 0#16, 0#16, 0x0080#16, 0#16, 0#16, 0#16] =
          (c', .err .channelValue) ∧
      (c'.processors 1).map (·.outData) = some [] ∧ (c'.processors 2).map (·.outData) = some [] :=
    ⟨_, Prod.ext rfl (by decide +kernel), by decide +kernel, by decide +kernel⟩
  have hq : (exNet.run true exDuo exWires exDuoWrong).queued 1 = [1#8] ∧
      (exNet.run true exDuo exWires exDuoWrong).queued 2 = [] ∧
      ((exNet.run true exDuo exWires exDuoWrong).line 1).waiting = none ∧
      ((exNet.run true exDuo exWires exDuoWrong).line 2).waiting = some (.bytes [8#8, 9#8]) := by
    decide +kernel
  generalize exNet.run true exDuo exWires exDuoWrong = s at *
  obtain ⟨c', hn, h1, h2⟩ := hn
  obtain ⟨q1, q2, q3, q4⟩ := hq
  have hg : (∀ j ∈ exWires.modules, ∀ f, inFrame (exWires.wire j).len (exWires.wire j).oi
      (List.replicate 8 0#16) = some f → (s.line j).Presents f) := by
    intro j hj f hf
    obtain ⟨g, hg, hpr⟩ := hs j hj
    rw [hf] at hg
    cases hg
    exact hpr
  have hst : s.step true exDuo exWires (.failing (List.replicate 8 0#16)) =
      { s with c := c', cycles := 3, line := fun j => (s.line j).cycled 3 } := by
    simp only [Net.step, hp, ho, hn, hc]
    rw [if_pos ⟨hg, by simp⟩, if_pos (by rw [ho]; exact exDuo_decodable)]
  simp only [Net.lostIn, hst, q1, q2, q3, q4, hc]
  cases h3 : c'.processors 1 with
  | none => simp [h3] at h1
  | some p =>
    cases h4 : c'.processors 2 with
    | none => simp [h4] at h2
    | some p' =>
      simp only [h3, h4, Option.map_some, Option.some.injEq] at h1 h2
      simp [Net.queued, h3, h4, h1, h2, sentBytes]

end Ur20
