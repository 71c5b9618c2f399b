import Verif.Spec.Sending
import Verif.Props.Station

/-! # Sending with `set_output`: C92 -/

namespace Ur20

open Spec Com Coupler
open scoped List

namespace Spec.Plant

/-- The plant without the value waiting for serial module `j`. -/
def cleared (s : Plant) (j : Nat) : Plant :=
  { s with c := { s.c with write := remove s.c.write ⟨j, 0⟩ } }

/-- The steps that are not cycles do not look at the waiting value. -/
theorem step_cleared {oc : Bool} {j : Nat} {len : ProcessDataLength} {oi oo : Word} (s : Plant)
    (e : PEv) (he : ∀ pi, e ≠ .start pi) :
    (s.cleared j).step oc j len oi oo e = (s.step oc j len oi oo e).cleared j ∧
    (s.step oc j len oi oo e).c.write ⟨j, 0⟩ = s.c.write ⟨j, 0⟩ ∧
    (s.step oc j len oi oo e).cycles = s.cycles := by
  cases e with
  | write buf =>
    simp only [Plant.step, cleared, writeBytes]
    cases s.c.processors j <;> simp [setProcessor]
  | read n =>
    simp only [Plant.step, cleared, Coupler.read]
    cases s.c.processors j with
    | none => simp
    | some p => simp only [read_ok, Res.bind_ok, setProcessor]; simp
  | other op =>
    simp only [Plant.step]
    split
    · rename_i hop
      cases op with
      | setOutput a v =>
        have hn : a.module ≠ j := hop
        have hne : (⟨j, 0⟩ : Address) ≠ a := by rintro rfl; exact hn rfl
        have hva : ∀ w, ({ s.c with write := w } : Coupler).isValidAddr a = s.c.isValidAddr a :=
          fun _ => rfl
        simp only [COp.apply, setOutput, cleared, hva]
        by_cases hb : (!s.c.isValidAddr a) = true
        · simp only [if_pos hb]; simp
        simp only [if_neg hb]
        refine ⟨?_, by simp [Coupler.insert, hne], trivial⟩
        congr 2
        funext x
        simp only [Coupler.insert, remove]
        by_cases h1 : x = a
        · subst h1; simp [hne.symm]
        · simp [h1]
      | next _ _ => exact hop.elim
      | read n k =>
        simp only [COp.apply, Coupler.read, cleared]
        cases s.c.processors n with
        | none => simp
        | some p => simp only [read_ok, Res.bind_ok, setProcessor]; simp
      | write n b =>
        simp only [COp.apply, writeBytes, cleared]
        cases s.c.processors n <;> simp [setProcessor]
    · simp
  | start pi => exact absurd rfl (he pi)
  | finish =>
    simp only [Plant.step, cleared]
    cases hpe : s.pending <;> simp only [hpe] <;> simp
  | take =>
    simp only [Plant.step, cleared]
    cases outFrame len oo s.out with
    | none => simp
    | some f =>
      by_cases hc : f.txCnt = (s.ack + 1) % 4
      · simp [hc]
      · simp [hc]
  | post seg =>
    simp only [Plant.step, cleared]
    cases outFrame len oo s.out with
    | none => simp
    | some f =>
      by_cases hc : f.rxCntAck = s.rxCnt
      · simp [hc]
      · simp [hc]
  | hide =>
    simp only [Plant.step, cleared]
    cases outFrame len oo s.out with
    | none => simp
    | some f =>
      by_cases hc : f.rxCntAck = s.rxCnt
      · simp [hc]
      · simp [hc]

end Spec.Plant

namespace Spec.Sending

/-- The plant behaves like the closed system, with the bytes written when they are taken. -/
structure QSim (oc : Bool) (cfg : CouplerConfig) (j : Nat) (len : ProcessDataLength) (oi oo : Word)
    (s : Sending) (t : Sys) : Prop where
  sim : Plant.Sim j len oi oo (s.plant.cleared j) t
  reach : ReachableFrom oc cfg s.plant.c
  waiting : s.plant.c.write ⟨j, 0⟩ = s.waiting

theorem QSim.serial {oc : Bool} {cfg : CouplerConfig} {j : Nat} {len : ProcessDataLength}
    {oi oo : Word} {s : Sending} {t : Sys} (h : QSim oc cfg j len oi oo s t) :
    SerialAt s.plant.c j len oi oo := h.sim.serial.congr rfl rfl

/-- A coupler without a waiting value. -/
theorem cleared_eq {s : Plant} {j : Nat} (h : s.c.write ⟨j, 0⟩ = none) : s.cleared j = s := by
  have : remove s.c.write ⟨j, 0⟩ = s.c.write := by
    funext x
    simp only [remove]
    split
    · rename_i hx; rw [hx, h]
    · rfl
  simp only [Plant.cleared, this]

/-- The waiting bytes as steps of the closed system. -/
def feedEvs : Option ChannelValue → List Ev
  | some (.bytes data) => [.write data]
  | _ => []

theorem feed_run (t : Sys) (w : Option ChannelValue) :
    (t.run (feedEvs w)) = { t with p := feed t.p w, written := t.written ++ sentBytes w } := by
  unfold feedEvs feed sentBytes
  split <;> simp [Sys.run, Sys.step]

theorem start_cases (oc : Bool) (j : Nat) (len : ProcessDataLength) (oi oo : Word) (s : Plant)
    (pi : List Word) :
    (s.step oc j len oi oo (.start pi) = s) ∨
    ∃ f c' img, s.pending = none ∧ inFrame len oi pi = some f ∧ s.c.next oc pi s.out = (c', .ok img) ∧
      s.Presents f := by
  simp only [Plant.step]
  split
  · rename_i f c' img h1 h2 h3
    split
    · rename_i hp
      exact .inr ⟨f, c', img, h1, h2, h3, hp⟩
    · exact .inl rfl
  · exact .inl rfl

/-- A successful cycle takes the waiting value. -/
theorem QSim.start {oc : Bool} {cfg : CouplerConfig} {j : Nat} {len : ProcessDataLength}
    {oi oo : Word} {s : Sending} {t : Sys} (h : QSim oc cfg j len oi oo s t) {pi img : List Word}
    {c' : Coupler} {f : RsIn} (hp : s.plant.pending = none) (hf : inFrame len oi pi = some f)
    (hpr : s.plant.Presents f) (hn : s.plant.c.next oc pi s.plant.out = (c', .ok img)) :
    QSim oc cfg j len oi oo (s.step oc cfg j len oi oo (.ev (.ev (.start pi))))
      ((t.run (feedEvs s.waiting)).step (.start f.bufferNearlyFull f.ready)) ∧
    (s.step oc cfg j len oi oo (.ev (.ev (.start pi)))).waiting = none := by
  have hr' := Plant.step_reachable (oc := oc) (j := j) (len := len) (oi := oi) (oo := oo) h.reach
    (.start pi)
  have hinv := inv_of_reachable h.reach
  obtain ⟨p, i, o, lt, g1, g2, g3, -, -, -, g7, g8, g9⟩ := serial_cycle hinv h.serial hn
  have hp1 := h.sim.proc
  simp only [Plant.cleared] at hp1
  rw [hp1] at g1
  cases g1
  rw [hf] at g2
  cases g2
  have ho := h.sim.out
  simp only [Plant.cleared] at ho
  rw [ho] at g3
  cases g3
  have hd : BytesKept (infos s.plant.c) j := h.sim.disjoint
  have g9 := g9 hd
  rw [h.waiting] at g7 g9
  have hst := next_static oc s.plant.c pi s.plant.out
  rw [hn] at hst
  obtain ⟨s1, s2⟩ := Plant.Sim.static hst.1 hst.2 h.serial hd
  have hI : c'.Inv := by have := hinv.next oc pi s.plant.out; rwa [hn] at this
  have htp : t.pending = none := by
    have := h.sim.pending
    simp only [Plant.cleared, hp] at this
    cases ht : t.pending with
    | none => rfl
    | some x => rw [ht] at this; simp at this
  obtain ⟨q1, q2, q3, q4⟩ := hpr
  have hinp : t.input f.bufferNearlyFull f.ready = f := by
    unfold Sys.input
    rw [h.sim.avail, h.sim.rxCnt, h.sim.ack, h.sim.rxData]
    simp only [Plant.cleared]
    rw [← q1, ← q2, ← q3, ← q4]
  have hcond : (2 < t.cycles + 1 ∧ t.avail = true ∧ t.fresh = true) ↔
      (2 < s.plant.cycles + 1 ∧ s.plant.avail = true ∧ s.plant.fresh = true) := by
    rw [h.sim.cycles, h.sim.avail, h.sim.fresh]; rfl
  have hstep : s.plant.step oc j len oi oo (.start pi) =
      (if 2 < s.plant.cycles + 1 ∧ s.plant.avail = true ∧ s.plant.fresh = true then
        { s.plant with c := c', pending := some img, cycles := s.plant.cycles + 1,
                       seen := s.plant.seen ++ s.plant.rxData, fresh := false }
      else { s.plant with c := c', pending := some img, cycles := s.plant.cycles + 1 }) := by
    simp only [Plant.step, hp, hf, hn, if_pos (show s.plant.Presents f from ⟨q1, q2, q3, q4⟩)]
  have hcy : (s.plant.step oc j len oi oo (.start pi)).cycles = s.plant.cycles + 1 := by
    rw [hstep]; split <;> rfl
  have hs : s.step oc cfg j len oi oo (.ev (.ev (.start pi))) =
      ⟨{ s.plant.step oc j len oi oo (.start pi) with
         written := (s.plant.step oc j len oi oo (.start pi)).written ++ sentBytes s.waiting },
        none⟩ := by
    simp only [Sending.step, Plant.ustep, hcy, if_true]
  rw [hs, feed_run]
  have hinp' : ∀ p pd w, ({ t with p := p, pending := pd, written := w } : Sys).input
      f.bufferNearlyFull f.ready = f := fun _ _ _ => hinp
  have hw : (s.plant.step oc j len oi oo (.start pi)).c = c' := by
    rw [hstep]; split <;> rfl
  refine ⟨⟨?_, hr', by simp only [hw]; exact g8⟩, rfl⟩
  rw [cleared_eq (by simp only [hw]; exact g8)]
  simp only [Sys.step, htp, Option.isSome_none, Bool.false_eq_true, if_false, hinp', hstep]
  by_cases hc : 2 < s.plant.cycles + 1 ∧ s.plant.avail = true ∧ s.plant.fresh = true
  · rw [if_pos hc, if_pos (hcond.2 hc)]
    exact ⟨hI, s1, s2, g7, g8, congrArg (· + 1) h.sim.cycles, h.sim.out, by simpa using g9, h.sim.ack,
      h.sim.rxCnt, h.sim.avail, h.sim.rxData, congrArg (· ++ _) h.sim.written, h.sim.received,
      by rw [h.sim.seen, h.sim.rxData]; rfl, h.sim.delivered, rfl⟩
  · rw [if_neg hc, if_neg (fun h => hc (hcond.1 h))]
    exact ⟨hI, s1, s2, g7, g8, congrArg (· + 1) h.sim.cycles, h.sim.out, by simpa using g9, h.sim.ack,
      h.sim.rxCnt, h.sim.avail, h.sim.rxData, congrArg (· ++ _) h.sim.written, h.sim.received,
      h.sim.seen, h.sim.delivered, h.sim.fresh⟩

/-- A failing cycle takes the waiting value if its images can be decoded, and is then a cycle whose
image is lost. -/
theorem QSim.failing_events {oc : Bool} {cfg : CouplerConfig} {j : Nat}
    {len : ProcessDataLength} {oi oo : Word} {s : Sending} {t : Sys}
    (h : QSim oc cfg j len oi oo s t) (pi : List Word) :
    ∃ evs, QSim oc cfg j len oi oo (s.step oc cfg j len oi oo (.ev (.failing pi))) (t.urun len evs) ∧
      NoCrash evs ∧ (¬ Decodable cfg pi s.plant.out → evs = []) ∧
      (evs = [] ∨ ∃ nf rdy, evs = (feedEvs s.waiting).map .ev ++ [.ev (.start nf rdy), .lost]) ∧
      ((evs = [] ∧ (s.step oc cfg j len oi oo (.ev (.failing pi))).plant.cycles = s.plant.cycles) ∨
        (t.pending = none ∧
          (s.step oc cfg j len oi oo (.ev (.failing pi))).plant.cycles = s.plant.cycles + 1 ∧
          ∃ nf rdy, evs = (feedEvs s.waiting).map .ev ++ [.ev (.start nf rdy), .lost])) := by
  have stay : s.plant.ustep oc cfg j len oi oo (.failing pi) = s.plant →
      ∃ evs, QSim oc cfg j len oi oo (s.step oc cfg j len oi oo (.ev (.failing pi)))
        (t.urun len evs) ∧ NoCrash evs ∧ (¬ Decodable cfg pi s.plant.out → evs = []) ∧
        (evs = [] ∨ ∃ nf rdy, evs = (feedEvs s.waiting).map .ev ++ [.ev (.start nf rdy), .lost]) ∧
      ((evs = [] ∧ (s.step oc cfg j len oi oo (.ev (.failing pi))).plant.cycles = s.plant.cycles) ∨
        (t.pending = none ∧
          (s.step oc cfg j len oi oo (.ev (.failing pi))).plant.cycles = s.plant.cycles + 1 ∧
          ∃ nf rdy, evs = (feedEvs s.waiting).map .ev ++ [.ev (.start nf rdy), .lost])) := by
    intro hs
    have : s.step oc cfg j len oi oo (.ev (.failing pi)) = s := by
      simp only [Sending.step, hs]
      rw [if_neg (by omega)]
    rw [this]
    exact ⟨[], h, fun e he => (by cases he), fun _ => rfl, .inl rfl, .inl ⟨rfl, rfl⟩⟩
  cases hpend : s.plant.pending with
  | some x => exact stay (by simp only [Plant.ustep, hpend])
  | none =>
  cases hn : s.plant.c.next oc pi s.plant.out with
  | mk c' res =>
  cases res with
  | ok img => exact stay (by simp only [Plant.ustep, hpend, hn])
  | panic => exact stay (by simp only [Plant.ustep, hpend, hn])
  | err e =>
  by_cases hg : (∀ f, inFrame len oi pi = some f → s.plant.Presents f) ∧
      (oc = false → s.plant.out.length ≤ 0xF800)
  case neg => exact stay (by simp only [Plant.ustep, hpend, hn, if_neg hg])
  have hus : s.plant.ustep oc cfg j len oi oo (.failing pi) =
      @Plant.failed s.plant c' (Decodable cfg pi s.plant.out) (Classical.propDecidable _) := by
    simp only [Plant.ustep, hpend, hn, if_pos hg]
  obtain ⟨hfr, hsz⟩ := hg
  have hr' : ReachableFrom oc cfg c' := by
    have := reachable_run h.reach [.next pi s.plant.out]
    simpa [runC, COp.apply, hn] using this
  have hstat := next_static oc s.plant.c pi s.plant.out
  rw [hn] at hstat
  have hd0 : BytesKept (infos s.plant.c) j := h.sim.disjoint
  obtain ⟨s1, s2⟩ := Plant.Sim.static hstat.1 hstat.2 h.serial hd0
  have hI : c'.Inv := inv_of_reachable hr'
  have htp : t.pending = none := by
    have := h.sim.pending
    simp only [Plant.cleared, hpend] at this
    cases ht : t.pending with
    | none => rfl
    | some x => rw [ht] at this; simp at this
  by_cases hd : Decodable cfg pi s.plant.out
  · obtain ⟨p, i, o, g1, g2, g3, -, -, g6, g7⟩ := decoded_serial h.reach hd h.serial
    rw [hn] at g6 g7
    simp only at g6 g7
    have hp1 := h.sim.proc
    simp only [Plant.cleared] at hp1
    rw [hp1] at g1
    cases g1
    have ho := h.sim.out
    simp only [Plant.cleared] at ho
    rw [ho] at g3
    cases g3
    rw [h.waiting] at g6
    obtain ⟨q1, q2, q3, q4⟩ := hfr i g2
    have hinp : t.input i.bufferNearlyFull i.ready = i := by
      unfold Sys.input
      rw [h.sim.avail, h.sim.rxCnt, h.sim.ack, h.sim.rxData]
      simp only [Plant.cleared]
      rw [← q1, ← q2, ← q3, ← q4]
    have hinp' : ∀ p pd w, ({ t with p := p, pending := pd, written := w } : Sys).input
        i.bufferNearlyFull i.ready = i := fun _ _ _ => hinp
    have hcond : (2 < t.cycles + 1 ∧ t.avail = true ∧ t.fresh = true) ↔
        (2 < s.plant.cycles + 1 ∧ s.plant.avail = true ∧ s.plant.fresh = true) := by
      rw [h.sim.cycles, h.sim.avail, h.sim.fresh]; rfl
    have hf : s.plant.ustep oc cfg j len oi oo (.failing pi) =
        (if 2 < s.plant.cycles + 1 ∧ s.plant.avail = true ∧ s.plant.fresh = true then
          { s.plant with c := c', cycles := s.plant.cycles + 1,
                         seen := s.plant.seen ++ s.plant.rxData, fresh := false }
        else { s.plant with c := c', cycles := s.plant.cycles + 1 }) := by
      rw [hus, Plant.failed, if_pos hd]
    have hcy : (s.plant.ustep oc cfg j len oi oo (.failing pi)).cycles = s.plant.cycles + 1 := by
      rw [hf]; split <;> rfl
    have hw : (s.plant.ustep oc cfg j len oi oo (.failing pi)).c = c' := by
      rw [hf]; split <;> rfl
    have hs : s.step oc cfg j len oi oo (.ev (.failing pi)) =
        ⟨{ s.plant.ustep oc cfg j len oi oo (.failing pi) with
           written := (s.plant.ustep oc cfg j len oi oo (.failing pi)).written ++
            sentBytes s.waiting }, none⟩ := by
      simp only [Sending.step, hcy, if_true]
    refine ⟨(feedEvs s.waiting).map .ev ++ [.ev (.start i.bufferNearlyFull i.ready), .lost], ?_, ?_,
      fun hd' => absurd hd hd', .inr ⟨_, _, rfl⟩, .inr ⟨htp, by rw [hs]; exact hcy, _, _, rfl⟩⟩
    · rw [urun_append, run_urun, feed_run, hs]
      refine ⟨?_, by simp only [hw]; exact hr', by simp only [hw]; exact g7⟩
      rw [cleared_eq (by simp only [hw]; exact g7)]
      simp only [Sys.urun, List.foldl, Sys.ustep, Sys.step, htp, Option.isSome_none,
        Bool.false_eq_true, if_false, hinp', hf]
      by_cases hc : 2 < s.plant.cycles + 1 ∧ s.plant.avail = true ∧ s.plant.fresh = true
      · rw [if_pos hc, if_pos (hcond.2 hc)]
        exact ⟨hI, s1, s2, g6, g7, congrArg (· + 1) h.sim.cycles, h.sim.out, by simp [hpend],
          h.sim.ack, h.sim.rxCnt, h.sim.avail, h.sim.rxData, congrArg (· ++ _) h.sim.written,
          h.sim.received, by rw [h.sim.seen, h.sim.rxData]; rfl, h.sim.delivered, rfl⟩
      · rw [if_neg hc, if_neg (fun h => hc (hcond.1 h))]
        exact ⟨hI, s1, s2, g6, g7, congrArg (· + 1) h.sim.cycles, h.sim.out, by simp [hpend],
          h.sim.ack, h.sim.rxCnt, h.sim.avail, h.sim.rxData, congrArg (· ++ _) h.sim.written,
          h.sim.received, h.sim.seen, h.sim.delivered, h.sim.fresh⟩
    · intro e he
      rcases List.mem_append.1 he with he | he
      · obtain ⟨x, -, rfl⟩ := List.mem_map.1 he
        simp
      · rcases List.mem_cons.1 he with rfl | he
        · simp
        · rcases List.mem_singleton.1 he with rfl; simp
  · have hd' := hd
    unfold Decodable at hd'
    rw [← decode_inputs h.reach, ← decode_outputs h.reach hsz] at hd'
    obtain ⟨-, ins1, h2, -⟩ := not_decoded hd'
    rw [hn] at h2
    simp only at h2
    have hs : s.step oc cfg j len oi oo (.ev (.failing pi)) =
        ⟨{ s.plant with c := c' }, s.waiting⟩ := by
      simp only [Sending.step, hus, Plant.failed, if_neg hd]
      rw [if_neg (by omega)]
    have hw : c'.write = s.plant.c.write := by rw [h2]
    refine ⟨[], ?_, fun e he => (by cases he), fun _ => rfl, .inl rfl, .inl ⟨rfl, by rw [hs]⟩⟩
    rw [hs]
    refine ⟨⟨?_, s1.congr rfl rfl, s2, ?_, ?_, h.sim.cycles, h.sim.out, h.sim.pending, h.sim.ack,
      h.sim.rxCnt, h.sim.avail, h.sim.rxData, h.sim.written, h.sim.received, h.sim.seen,
      h.sim.delivered, h.sim.fresh⟩, hr', by rw [← h.waiting]; exact congrFun hw _⟩
    · exact ⟨hI.len, hI.good, hI.proc, hI.com, fun a ha => hI.valid a (by
        simp only [Plant.cleared, remove] at ha
        split at ha
        · exact absurd rfl ha
        · exact ha)⟩
    · rw [h2]; exact h.sim.proc
    · simp [Plant.cleared, remove]

/-- A failing cycle takes the waiting value if its images can be decoded. -/
theorem QSim.failing {oc : Bool} {cfg : CouplerConfig} {j : Nat}
    {len : ProcessDataLength} {oi oo : Word} {s : Sending} {t : Sys}
    (h : QSim oc cfg j len oi oo s t) (pi : List Word) :
    ∃ evs, QSim oc cfg j len oi oo (s.step oc cfg j len oi oo (.ev (.failing pi))) (t.urun len evs) ∧
      NoCrash evs ∧ (¬ Decodable cfg pi s.plant.out → evs = []) ∧
      (evs = [] ∨ ∃ nf rdy, evs = (feedEvs s.waiting).map .ev ++ [.ev (.start nf rdy), .lost]) := by
  obtain ⟨evs, h1, h2, h3, h4, -⟩ := h.failing_events pi
  exact ⟨evs, h1, h2, h3, h4⟩

/-- A crash. -/
theorem QSim.crash {oc : Bool} {cfg : CouplerConfig} {j : Nat}
    {len : ProcessDataLength} {oi oo : Word} {c0 : Coupler} (h0 : Coupler.new cfg = .ok c0)
    (hs0 : SerialAt c0 j len oi oo) (hd0 : BytesKept (infos c0) j)
    {s : Sending} {t : Sys} (h : QSim oc cfg j len oi oo s t) :
    QSim oc cfg j len oi oo (s.step oc cfg j len oi oo (.ev .crash)) (t.ustep len .crash) := by
  have hw0 : c0.write ⟨j, 0⟩ = none := ((C13_success cfg).2 c0 h0).2.2.2.2.2 _
  have hp : c0.processors j = some (MessageProcessor.new len) := by
    obtain ⟨cm, hm, rfl, -⟩ := hs0
    obtain ⟨-, -, ms, -, hms⟩ := new_ok h0
    rw [hms] at hm ⊢
    simp only [initial]
    have : ms[j]? = some (Module.com cm) := hm.1
    rw [this]
    rfl
  simp only [Sending.step, Plant.ustep, h0]
  refine ⟨?_, ⟨c0, [], h0, rfl⟩, hw0⟩
  rw [cleared_eq hw0]
  exact ⟨Inv.new h0, hs0, hd0, hp, hw0, rfl, h.sim.out, rfl, h.sim.ack, h.sim.rxCnt, h.sim.avail,
    h.sim.rxData, h.sim.written, h.sim.received, h.sim.seen, h.sim.delivered, rfl⟩

/-- Each step of the plant is a schedule of the closed system, with the steps that lose
something spelled out. -/
theorem QSim.step_events {oc : Bool} {cfg : CouplerConfig} {j : Nat}
    {len : ProcessDataLength} {oi oo : Word} {c0 : Coupler} (h0 : Coupler.new cfg = .ok c0)
    (hs0 : SerialAt c0 j len oi oo) (hd0 : BytesKept (infos c0) j)
    {s : Sending} {t : Sys} (h : QSim oc cfg j len oi oo s t) (e : SPEv) :
    ∃ evs, QSim oc cfg j len oi oo (s.step oc cfg j len oi oo e) (t.urun len evs) ∧
      (e ≠ .ev .crash → NoCrash evs) ∧
      (∀ e', e = .ev (.ev e') → ∃ es : List Ev, evs = es.map UEv.ev) ∧
      (∀ v, e = .set v → evs = []) ∧
      (∀ pi, e = .ev (.failing pi) → ¬ Decodable cfg pi s.plant.out → evs = []) ∧
      ((e = .ev (.ev .finish) ∧ evs = [.ev .finish]) ∨ (e = .ev .lost ∧ evs = [.lost]) ∨
        (e = .ev .crash ∧ evs = [.crash]) ∨
        (∃ pi, e = .ev (.failing pi) ∧ t.pending = none ∧
          (s.step oc cfg j len oi oo e).plant.cycles = s.plant.cycles + 1 ∧
          ∃ nf rdy, evs = (feedEvs s.waiting).map .ev ++ [.ev (.start nf rdy), .lost]) ∨
        (e ≠ .ev (.ev .finish) ∧ e ≠ .ev .lost ∧ e ≠ .ev .crash ∧
          ∃ es : List Ev, Ev.finish ∉ es ∧ evs = es.map .ev ∧ ∀ pi, e = .ev (.failing pi) →
            (s.step oc cfg j len oi oo e).plant.cycles = s.plant.cycles)) := by
  have hcl : ∀ p : Plant, (p.cleared j).c.write ⟨j, 0⟩ = none := fun p => by
    simp [Plant.cleared, remove]
  cases e with
  | set v =>
    refine ⟨[], ⟨?_, reachable_run h.reach [.setOutput ⟨j, 0⟩ v], ?_⟩, fun _ e he => (by cases he),
      fun _ h => (by cases h), fun _ _ => rfl, fun _ h => (by cases h),
      .inr (.inr (.inr (.inr ⟨by simp, by simp, by simp, [], by simp, rfl, by simp⟩)))⟩
    · have : (s.step oc cfg j len oi oo (.set v)).plant.cleared j = s.plant.cleared j := by
        simp only [Sending.step, setOutput, h.serial.valid, Bool.not_true, Bool.false_eq_true,
          if_false, Plant.cleared]
        congr 2
        funext x
        simp only [remove, Coupler.insert]
        split <;> rfl
      rw [this]
      exact h.sim
    · simp [Sending.step, setOutput, h.serial.valid, Coupler.insert]
  | ev e =>
    cases e with
    | ev e =>
      by_cases he : ∃ pi, e = .start pi
      · obtain ⟨pi, rfl⟩ := he
        rcases start_cases oc j len oi oo s.plant pi with hs | ⟨f, c', img, g1, g2, g3, g4⟩
        · refine ⟨[], ?_, fun _ e he => (by cases he), fun _ _ => ⟨[], rfl⟩, fun _ _ => rfl,
            fun _ _ _ => rfl,
            .inr (.inr (.inr (.inr ⟨by simp, by simp, by simp, [], by simp, rfl, by simp⟩)))⟩
          have : s.step oc cfg j len oi oo (.ev (.ev (.start pi))) = s := by
            simp only [Sending.step, Plant.ustep, hs]
            rw [if_neg (by omega)]
          rw [this]
          exact h
        · obtain ⟨h1, -⟩ := h.start g1 g2 g4 g3
          refine ⟨(feedEvs s.waiting ++ [Ev.start f.bufferNearlyFull f.ready]).map .ev, ?_, ?_,
            fun _ _ => ⟨_, rfl⟩, fun _ h => (by cases h), fun _ h => (by cases h),
            .inr (.inr (.inr (.inr ⟨by simp, by simp, by simp, _, ?_, rfl, by simp⟩)))⟩
          rotate_left 2
          · have : Ev.finish ∉ feedEvs s.waiting := by
              unfold feedEvs
              split <;> simp
            simpa using this
          · rw [run_urun]
            rw [show t.run (feedEvs s.waiting ++ [Ev.start f.bufferNearlyFull f.ready]) =
              (t.run (feedEvs s.waiting)).step (.start f.bufferNearlyFull f.ready) by
                simp [Sys.run, List.foldl_append]]
            exact h1
          · intro _ e' he
            obtain ⟨x, -, rfl⟩ := List.mem_map.1 he
            simp
      · have he' : ∀ pi, e ≠ .start pi := fun pi hx => he ⟨pi, hx⟩
        obtain ⟨k1, k2, k3⟩ := Plant.step_cleared (oc := oc) (j := j) (len := len) (oi := oi)
          (oo := oo) s.plant e he'
        obtain ⟨evs, h1, hev⟩ := h.sim.step_events (oc := oc) e
        rw [k1] at h1
        have hs : s.step oc cfg j len oi oo (.ev (.ev e)) =
            ⟨s.plant.step oc j len oi oo e, s.waiting⟩ := by
          simp only [Sending.step, Plant.ustep, k3]
          rw [if_neg (by omega)]
        refine ⟨evs.map .ev, ?_, ?_, fun _ _ => ⟨_, rfl⟩, fun _ h => (by cases h),
          fun _ h => (by cases h), ?_⟩
        rotate_left 2
        · rcases hev with ⟨rfl, rfl⟩ | ⟨g2, g3⟩
          · exact .inl ⟨rfl, rfl⟩
          · exact .inr (.inr (.inr (.inr ⟨fun h => g2 (by injection h with h; injection h), by simp,
              by simp, evs, g3, rfl, by simp⟩)))
        · rw [run_urun, hs]
          exact ⟨h1, Plant.step_reachable h.reach e, by rw [k2, h.waiting]⟩
        · intro _ e' he
          obtain ⟨x, -, rfl⟩ := List.mem_map.1 he
          simp
    | failing pi =>
      obtain ⟨evs, h1, h2, h3, -, h5⟩ := h.failing_events pi
      refine ⟨evs, h1, fun _ => h2, fun _ h => (by cases h), fun _ h => (by cases h),
        fun pi' hp => by cases hp; exact h3, ?_⟩
      rcases h5 with ⟨rfl, h5⟩ | ⟨h5, h6, h7⟩
      · exact .inr (.inr (.inr (.inr ⟨by simp, by simp, by simp, [], by simp, rfl, fun _ _ => h5⟩)))
      · exact .inr (.inr (.inr (.inl ⟨pi, rfl, h5, h6, h7⟩)))
    | lost =>
      have hs : s.step oc cfg j len oi oo (.ev .lost) =
          ⟨{ s.plant with pending := none }, s.waiting⟩ := by
        simp [Sending.step, Plant.ustep]
      refine ⟨[.lost], ?_, fun _ e' he => ?_, fun _ h => (by cases h), fun _ h => (by cases h),
        fun _ h => (by cases h), .inr (.inl ⟨rfl, rfl⟩)⟩
      · rw [hs]
        exact ⟨⟨h.sim.inv, h.sim.serial, h.sim.disjoint, h.sim.proc, h.sim.write, h.sim.cycles,
          h.sim.out, rfl, h.sim.ack, h.sim.rxCnt, h.sim.avail, h.sim.rxData, h.sim.written,
          h.sim.received, h.sim.seen, h.sim.delivered, h.sim.fresh⟩, h.reach, h.waiting⟩
      · rcases List.mem_singleton.1 he with rfl
        simp
    | crash =>
      exact ⟨[.crash], h.crash h0 hs0 hd0, fun h => absurd rfl h, fun _ h => (by cases h),
        fun _ h => (by cases h), fun _ h => (by cases h), .inr (.inr (.inl ⟨rfl, rfl⟩))⟩

/-- Each step of the plant is a schedule of the closed system. -/
theorem QSim.step {oc : Bool} {cfg : CouplerConfig} {j : Nat}
    {len : ProcessDataLength} {oi oo : Word} {c0 : Coupler} (h0 : Coupler.new cfg = .ok c0)
    (hs0 : SerialAt c0 j len oi oo) (hd0 : BytesKept (infos c0) j)
    {s : Sending} {t : Sys} (h : QSim oc cfg j len oi oo s t) (e : SPEv) :
    ∃ evs, QSim oc cfg j len oi oo (s.step oc cfg j len oi oo e) (t.urun len evs) ∧
      (e ≠ .ev .crash → NoCrash evs) ∧
      (∀ e', e = .ev (.ev e') → ∃ es : List Ev, evs = es.map UEv.ev) ∧
      (∀ v, e = .set v → evs = []) ∧
      (∀ pi, e = .ev (.failing pi) → ¬ Decodable cfg pi s.plant.out → evs = []) := by
  obtain ⟨evs, h1, h2, h3, h4, h5, -⟩ := h.step_events h0 hs0 hd0 e
  exact ⟨evs, h1, h2, h3, h4, h5⟩

theorem QSim.run {oc : Bool} {cfg : CouplerConfig} {j : Nat}
    {len : ProcessDataLength} {oi oo : Word} {c0 : Coupler} (h0 : Coupler.new cfg = .ok c0)
    (hs0 : SerialAt c0 j len oi oo) (hd0 : BytesKept (infos c0) j)
    {s : Sending} {t : Sys} (h : QSim oc cfg j len oi oo s t) (sevs : List SPEv) :
    ∃ evs, QSim oc cfg j len oi oo (s.run oc cfg j len oi oo sevs) (t.urun len evs) ∧
      (NoCrashesS sevs → NoCrash evs) ∧
      (OnlyUndecodable oc cfg j len oi oo s sevs → ∃ es : List Ev, evs = es.map UEv.ev) := by
  induction sevs generalizing s t with
  | nil => exact ⟨[], h, fun _ e he => (by cases he), fun _ => ⟨[], rfl⟩⟩
  | cons e sevs ih =>
    obtain ⟨evs1, h1, n1, e1, f1, g1⟩ := h.step h0 hs0 hd0 e
    obtain ⟨evs2, h2, n2, e2⟩ := ih h1
    refine ⟨evs1 ++ evs2, ?_, ?_, ?_⟩
    · rw [urun_append]; exact h2
    · intro hn x hx
      rcases List.mem_append.1 hx with hx | hx
      · exact n1 (hn _ List.mem_cons_self) x hx
      · exact n2 (fun y hy => hn y (List.mem_cons_of_mem _ hy)) x hx
    · intro ho
      obtain ⟨ho1, ho2⟩ := ho
      obtain ⟨es2, rfl⟩ := e2 ho2
      cases e with
      | set v => rw [f1 v rfl]; exact ⟨es2, rfl⟩
      | ev e =>
        cases e with
        | ev e =>
          obtain ⟨es1, rfl⟩ := e1 _ rfl
          exact ⟨es1 ++ es2, by simp⟩
        | failing pi => rw [g1 pi rfl ho1]; exact ⟨es2, rfl⟩
        | lost => exact ho1.elim
        | crash => exact ho1.elim

theorem initial_run {oc : Bool} {cfg : CouplerConfig} {j : Nat}
    {len : ProcessDataLength} {oi oo : Word} {s : Plant} (h : s.Initial cfg j len oi oo)
    (sevs : List SPEv) :
    ∃ (t : Sys) (evs : List UEv), t.Initial len ∧
      QSim oc cfg j len oi oo (Sending.run oc cfg j len oi oo ⟨s, none⟩ sevs) (t.urun len evs) ∧
      (NoCrashesS sevs → NoCrash evs) ∧
      (OnlyUndecodable oc cfg j len oi oo ⟨s, none⟩ sevs → ∃ es : List Ev, evs = es.map UEv.ev) := by
  obtain ⟨t, h1, h2⟩ := h.sim
  have hw : s.c.write ⟨j, 0⟩ = none := h2.write
  obtain ⟨evs, h3⟩ := QSim.run (oc := oc) h.c h.serial h.disjoint (s := ⟨s, none⟩) (t := t)
    ⟨by rw [cleared_eq hw]; exact h2, ⟨s.c, [], h.c, rfl⟩, hw⟩ sevs
  exact ⟨t, evs, h1, h3⟩

end Spec.Sending

/-! ### C92 -/

/-- C92: whatever is set on the serial module and written to its writer, whatever cycles fail,
images are lost and wherever the application crashes: what the device has taken over, what is in
flight and what is queued are bytes that were written or taken from a set value by a cycle, each at
most once and in this order. -/
theorem C92_order (oc : Bool) (cfg : CouplerConfig) (j : Nat)
    (len : ProcessDataLength) (oi oo : Word) (s : Plant) (h : s.Initial cfg j len oi oo)
    (evs : List SPEv) :
    let r := (Sending.run oc cfg j len oi oo ⟨s, none⟩ evs).plant
    r.received ++ r.inFlight len oo ++ r.queued j <+ r.written := by
  obtain ⟨t, tevs, h1, h2, -, -⟩ := Sending.initial_run (oc := oc) h evs
  have h3 := C83_order_partial h1 tevs
  have e1 := h2.sim.same_queued
  have e2 := h2.sim.same_inFlight
  have e3 := h2.sim.received
  have e4 := h2.sim.written
  simp only
  rw [← e1, ← e2, e3, e4] at h3
  exact h3

/-- C92: if nothing is lost and cycles only fail because of undecodable images, all bytes set and
taken by a cycle and all bytes written arrive, exactly once and in this order. -/
theorem C92_exactly_once (oc : Bool) (cfg : CouplerConfig)
    (j : Nat) (len : ProcessDataLength) (oi oo : Word) (s : Plant)
    (h : s.Initial cfg j len oi oo) (evs : List SPEv)
    (hu : Sending.OnlyUndecodable oc cfg j len oi oo ⟨s, none⟩ evs) :
    let r := (Sending.run oc cfg j len oi oo ⟨s, none⟩ evs).plant
    r.received ++ r.inFlight len oo ++ r.queued j = r.written := by
  obtain ⟨t, tevs, h1, h2, -, h3⟩ := Sending.initial_run (oc := oc) h evs
  obtain ⟨es, rfl⟩ := h3 hu
  rw [run_urun] at h2
  have h4 := C25_exactly_once len t h1 es
  simp only at h4 ⊢
  have e1 := h2.sim.same_queued
  have e2 := h2.sim.same_inFlight
  have e3 := h2.sim.received
  have e4 := h2.sim.written
  rw [← e1, ← e2, e3, e4] at h4
  exact h4

/-- C92: setting values on the serial module does not affect what is received. -/
theorem C92_receive (oc : Bool) (cfg : CouplerConfig) (j : Nat)
    (len : ProcessDataLength) (oi oo : Word) (s : Plant) (h : s.Initial cfg j len oi oo)
    (evs : List SPEv) (hc : NoCrashesS evs) :
    let r := (Sending.run oc cfg j len oi oo ⟨s, none⟩ evs).plant
    r.delivered ++ r.buffered j = r.seen := by
  obtain ⟨t, tevs, h1, h2, h3, -⟩ := Sending.initial_run (oc := oc) h evs
  have h4 := C83_receive_partial h1 tevs (h3 hc)
  have e1 := h2.sim.proc
  have e2 := h2.sim.delivered
  have e3 := h2.sim.seen
  simp only
  unfold Plant.buffered
  simp only [Plant.cleared] at e1
  rw [e1]
  rw [e2, e3] at h4
  exact h4

theorem chunksAux_length {n : Nat} (hn : 0 < n) (fuel : Nat) (l : List Byte)
    (hf : l.length ≤ fuel) : (chunksAux n fuel l).length = (l.length + n - 1) / n := by
  induction fuel generalizing l with
  | zero =>
    have : l = [] := List.length_eq_zero_iff.1 (by omega)
    subst this
    simp only [chunksAux, List.length_nil]
    rw [Nat.div_eq_of_lt (by omega)]
  | succ fuel ih =>
    cases l with
    | nil =>
      simp only [chunksAux, List.isEmpty_nil, if_true, List.length_nil]
      rw [Nat.div_eq_of_lt (by omega)]
    | cons x l =>
      simp only [chunksAux, List.isEmpty_cons, Bool.false_eq_true, if_false, List.length_cons]
      rw [ih _ (by simp at hf ⊢; omega)]
      simp only [List.length_drop, List.length_cons]
      by_cases hle : n ≤ l.length + 1
      · rw [show l.length + 1 + n - 1 = (l.length + 1 - n + n - 1) + n by omega,
          Nat.add_div_right _ hn]
      · rw [show l.length + 1 - n + n - 1 = n - 1 by omega, Nat.div_eq_of_lt (by omega),
          show l.length + 1 + n - 1 = l.length + n by omega, Nat.add_div_right _ hn,
          Nat.div_eq_of_lt (by omega)]

namespace Spec.Sending

/-- Values for the serial module are accepted, whatever they are. -/
theorem pending_step {oc : Bool} {cfg : CouplerConfig} {j : Nat}
    {len : ProcessDataLength} {oi oo : Word} {s : Sending} (hs : SerialAt s.plant.c j len oi oo)
    (hr : ReachableFrom oc cfg s.plant.c) (h : PendingAccepted cfg s.plant.c) (e : SPEv)
    (he : ∀ a v, e = .ev (.ev (.other (.setOutput a v))) → ∀ t, cfg.modules[a.module]? = some t →
      Accepts t v) : PendingAccepted cfg (s.step oc cfg j len oi oo e).plant.c := by
  cases e with
  | set v =>
    refine Plant.pending_call (oc := oc) (op := .setOutput ⟨j, 0⟩ v) h fun a w hx t ht => ?_
    cases hx
    obtain ⟨c0, ops, h0, hrun⟩ := hr
    obtain ⟨cm, hm, -⟩ := hs
    obtain ⟨h1, -, h3, -⟩ := (C13_success cfg).2 c0 h0
    have hlt : j < cfg.params.length := by
      have := ((C13_success cfg).1.1 ⟨c0, h0⟩).1
      rw [← this]
      exact (List.getElem?_eq_some_iff.1 ht).1
    obtain ⟨m, o, n, g1, g2, -⟩ := h3 j t _ ht (List.getElem?_eq_getElem hlt)
    have hmod : s.plant.c.modules = c0.modules := by rw [hrun]; exact (run_static oc c0 ops).1
    have : m = .com cm := by
      have := hm.1
      rw [hmod, g1] at this
      exact Option.some.inj this
    subst this
    rw [(isSerial_type g2).1 ⟨cm, rfl⟩]
    trivial
  | ev e =>
    have := Plant.pending_ustep (oc := oc) (j := j) (len := len) (oi := oi) (oo := oo) h e
      (fun a v hx => he a v (by rw [hx]))
    cases e with
    | crash => exact this
    | ev e => simp only [Sending.step]; split <;> exact this
    | failing pi => simp only [Sending.step]; split <;> exact this
    | lost => simp only [Sending.step]; split <;> exact this

theorem pending_run {oc : Bool} {cfg : CouplerConfig} {j : Nat}
    {len : ProcessDataLength} {oi oo : Word} {c0 : Coupler} (h0 : Coupler.new cfg = .ok c0)
    (hs0 : SerialAt c0 j len oi oo) (hd0 : BytesKept (infos c0) j)
    {s : Sending} {t : Sys} (h : QSim oc cfg j len oi oo s t) (hp : PendingAccepted cfg s.plant.c)
    (evs : List SPEv) (he : AcceptedValuesS cfg evs) :
    PendingAccepted cfg (s.run oc cfg j len oi oo evs).plant.c := by
  induction evs generalizing s t with
  | nil => exact hp
  | cons e evs ih =>
    obtain ⟨evs1, h1, -⟩ := h.step h0 hs0 hd0 e
    exact ih h1 (pending_step h.serial h.reach hp e fun a v hx => he a v (by
      rw [← hx]; exact List.mem_cons_self)) (fun a v hx => he a v (List.mem_cons_of_mem _ hx))

end Spec.Sending

namespace Spec.Plant

/-- The log of written bytes does not matter for cycles and the device. -/
def withWritten (s : Plant) (w : List Byte) : Plant := { s with written := w }

theorem withWritten_start {oc : Bool} {j : Nat} {len : ProcessDataLength} {oi oo : Word} (s : Plant)
    (w : List Byte) (pi : List Word) :
    (s.withWritten w).step oc j len oi oo (.start pi) =
      (s.step oc j len oi oo (.start pi)).withWritten w := by
  obtain ⟨c, cy, out, pend, ack, rxc, av, rxd, wr, rec, seen, dlv, fr⟩ := s
  simp only [Plant.step, withWritten]
  cases pend with
  | some x => rfl
  | none =>
    cases inFrame len oi pi with
    | none => rfl
    | some f =>
      generalize c.next oc pi out = x
      obtain ⟨c', r⟩ := x
      cases r with
      | ok img =>
        simp only [Plant.Presents]
        by_cases hp : f.dataAvailable = av ∧ f.rxCnt = rxc ∧ f.txCntAck = ack ∧ f.data = rxd
        · simp only [hp, and_self, if_true]
          by_cases hc : 2 < cy + 1 ∧ av = true ∧ fr = true
          · simp [hc]
          · simp [hc]
        · simp [hp]
      | err e => rfl
      | panic => rfl

theorem withWritten_finish {oc : Bool} {j : Nat} {len : ProcessDataLength} {oi oo : Word} (s : Plant)
    (w : List Byte) :
    (s.withWritten w).step oc j len oi oo .finish = (s.step oc j len oi oo .finish).withWritten w := by
  obtain ⟨c, cy, out, pend, ack, rxc, av, rxd, wr, rec, seen, dlv, fr⟩ := s
  cases pend <;> rfl

theorem withWritten_take {oc : Bool} {j : Nat} {len : ProcessDataLength} {oi oo : Word} (s : Plant)
    (w : List Byte) :
    (s.withWritten w).step oc j len oi oo .take = (s.step oc j len oi oo .take).withWritten w := by
  simp only [Plant.step, withWritten]
  cases outFrame len oo s.out with
  | none => rfl
  | some f =>
    by_cases hc : f.txCnt = (s.ack + 1) % 4
    · simp [hc]
    · simp [hc]

theorem withWritten_round {oc : Bool} {j : Nat} {len : ProcessDataLength} {oi oo : Word} (s : Plant)
    (w : List Byte) (pi : List Word) :
    (s.withWritten w).round oc j len oi oo pi = (s.round oc j len oi oo pi).withWritten w := by
  simp only [Plant.round, Plant.run, List.foldl, withWritten_start, withWritten_finish,
    withWritten_take]

theorem withWritten_rounds {oc : Bool} {j : Nat} {len : ProcessDataLength} {oi oo : Word} (s : Plant)
    (w : List Byte) (pis : List (List Word)) :
    (s.withWritten w).rounds oc j len oi oo pis = (s.rounds oc j len oi oo pis).withWritten w := by
  induction pis generalizing s with
  | nil => rfl
  | cons pi pis ih =>
    simp only [Plant.rounds, List.foldl_cons] at ih ⊢
    rw [withWritten_round, ih]

theorem withWritten_good {oc : Bool} {cfg : CouplerConfig} {j : Nat} {len : ProcessDataLength}
    {oi oo : Word} (s : Plant) (w : List Byte) (pis : List (List Word))
    (h : s.GoodInputs oc cfg j len oi oo pis) :
    (s.withWritten w).GoodInputs oc cfg j len oi oo pis := by
  induction pis generalizing s with
  | nil => trivial
  | cons pi pis ih =>
    refine ⟨h.1, h.2.1, ?_⟩
    rw [withWritten_round]
    exact ih _ h.2.2

end Spec.Plant

/-- Rounds of a cycle and a look of the device deliver everything, and then the waiting value. -/
theorem Spec.Sending.QSim.deliver {oc : Bool} {cfg : CouplerConfig} {j : Nat}
    {len : ProcessDataLength} {oi oo : Word} {t : Sys}
    (h1 : t.p.initState = initStateOf t.cycles) (h2 : t.ack < 4) {A : Sending} (h3 : Sending.QSim oc cfg j len oi oo A t)
    (hap : A.plant.pending = none) (ho : OutputsReady cfg A.plant.out) (hc : 2 ≤ A.plant.cycles)
    (hacc' : PendingAccepted cfg A.plant.c) (pis : List (List Word))
    (hg : A.plant.GoodInputs oc cfg j len oi oo pis)
    (hk : 1 + A.plant.segments j + ((sentBytes A.waiting).length + capacity len - 1) / capacity len ≤
      pis.length) :
    (A.plant.rounds oc j len oi oo pis).received =
      A.plant.received ++ A.plant.inFlight len oo ++ A.plant.queued j ++ sentBytes A.waiting := by
  -- the first round
  cases pis with
  | nil => simp at hk
  | cons pi pis =>
  obtain ⟨hi, ⟨f, hf, hpr⟩, hg⟩ := hg
  have hcom : CompleteImages cfg pi A.plant.out := ⟨hi, ho.registers⟩
  have henc : Encodable cfg A.plant.c.write A.plant.out :=
    ⟨fun j t par o i ch v hcfg _ hw => hacc' _ _ _ hw hcfg.1,
      fun j t par o i ch us hcfg hno ht hch _ => 
        ho.preset j t par o i ch us hcfg hno ht hch⟩
  obtain ⟨c', img, hn, -⟩ := C68_success oc cfg _ h3.reach pi A.plant.out hcom henc
  obtain ⟨q1, q2⟩ := h3.start hap hf hpr hn
  have hB : (A.step oc cfg j len oi oo (.ev (.ev (.start pi)))).plant =
      (A.plant.step oc j len oi oo (.start pi)).withWritten
        (A.step oc cfg j len oi oo (.ev (.ev (.start pi)))).plant.written := by
    simp only [Sending.step]
    split <;> rfl
  have hsim : Plant.Sim j len oi oo (A.step oc cfg j len oi oo (.ev (.ev (.start pi)))).plant
      ((t.run (Sending.feedEvs A.waiting)).step
        (.start f.bufferNearlyFull f.ready)) := by
    have := q1.sim
    rwa [Sending.cleared_eq (by rw [q1.waiting, q2])] at this
  generalize (A.step oc cfg j len oi oo (.ev (.ev (.start pi)))).plant.written = w at hB
  rw [hB] at hsim
  have hsim2 := (hsim.finish (oc := oc)).take (oc := oc)
  rw [Plant.withWritten_finish, Plant.withWritten_take] at hsim2
  have hst1 : (A.plant.step oc j len oi oo (.start pi)).pending = some img ∧
      (A.plant.step oc j len oi oo (.start pi)).c = c' := by
    simp only [Plant.step, hap, hf, hn, if_pos hpr]
    split <;> exact ⟨rfl, rfl⟩
  have hround : A.plant.round oc j len oi oo pi = ((A.plant.step oc j len oi oo (.start pi)).step oc j
      len oi oo .finish).step oc j len oi oo .take := rfl
  rw [← hround] at hsim2
  have hfin : (A.plant.round oc j len oi oo pi).pending = none ∧
      (A.plant.round oc j len oi oo pi).out = img ∧ (A.plant.round oc j len oi oo pi).c = c' := by
    rw [hround]
    generalize A.plant.step oc j len oi oo (.start pi) = s1 at hst1
    simp only [Plant.step, hst1.1]
    split
    · split <;> exact ⟨rfl, rfl, hst1.2⟩
    · exact ⟨rfl, rfl, hst1.2⟩
  have hready : Plant.Ready oc cfg j len oi oo ((A.plant.round oc j len oi oo pi).withWritten w)
      ((t.run (Sending.feedEvs A.waiting)).round) := by
    refine ⟨⟨?_, ?_⟩, hfin.1, ?_, ?_⟩
    · rw [← Plant.round_flags _ f.bufferNearlyFull f.ready]
      exact hsim2
    · exact Plant.step_reachable (j := j) (len := len) (oi := oi) (oo := oo)
        (Plant.step_reachable (j := j) (len := len) (oi := oi) (oo := oo)
          (Plant.step_reachable (j := j) (len := len) (oi := oi) (oo := oo) h3.reach (.start pi))
          .finish) .take
    · show OutputsReady cfg (A.plant.round oc j len oi oo pi).out
      rw [hfin.2.1]
      exact outputs_returned h3.reach ho hcom henc hn
    · show PendingAccepted cfg (A.plant.round oc j len oi oo pi).c
      rw [hfin.2.2]
      have := Plant.pending_call (oc := oc) (op := .next pi A.plant.out) hacc'
        (fun _ _ h => by cases h)
      simpa [COp.apply, hn] using this
  have hr := hready.rounds pis (Plant.withWritten_good _ w pis hg)
  rw [Plant.withWritten_rounds] at hr
  have hrec : (A.plant.rounds oc j len oi oo (pi :: pis)).received =
      (rounds (pi :: pis).length (t.run (Sending.feedEvs A.waiting))).received :=
    hr.sim.sim.received.symm
  have hfeed : (t.run (Sending.feedEvs A.waiting)).p.initState =
        initStateOf (t.run (Sending.feedEvs A.waiting)).cycles ∧
      (t.run (Sending.feedEvs A.waiting)).ack < 4 := by
    unfold Sending.feedEvs
    split <;> exact ⟨h1, h2⟩
  have htp : t.pending = none := by
    have := h3.sim.pending
    simp only [Plant.cleared] at this
    rw [hap] at this
    cases ht : t.pending with
    | none => rfl
    | some x => rw [ht] at this; simp at this
  have hcy : 2 ≤ t.cycles := by rw [h3.sim.cycles]; exact hc
  have hproc : A.plant.c.processors j = some t.p := h3.sim.proc
  have hseg : A.plant.segments j = t.p.outData.length := by
    unfold Plant.segments; rw [hproc]
  have hql : t.p.processDataLen = len := by
    obtain ⟨cm, k1, k2⟩ := (inv_of_reachable h3.reach).proc j _ hproc
    obtain ⟨cm', k3, k4, -⟩ := h3.serial
    rw [k3.1] at k1
    cases k1
    rw [k2.1, k4]
  have hrun := Sending.feed_run t A.waiting
  have hlen : (feed t.p A.waiting).outData.length = t.p.outData.length
      + ((sentBytes A.waiting).length + capacity len - 1) / capacity len ∧
      (feed t.p A.waiting).outData.flatten =
        t.p.outData.flatten ++ sentBytes A.waiting := by
    have hcap : capacity len = len.userDataLen := by cases len <;> rfl
    have hpos := userDataLen_pos len
    have hno : (([] : List Byte).length + capacity len - 1) / capacity len = 0 := by
      rw [hcap]; exact Nat.div_eq_of_lt (by simp; omega)
    cases hw : A.waiting with
    | none =>
      refine ⟨?_, ?_⟩
      · show _ = _ + (([] : List Byte).length + capacity len - 1) / capacity len
        rw [hno]; rfl
      · show _ = _ ++ []
        rw [List.append_nil]; rfl
    | some v =>
      cases v <;> try (simp only [feed, sentBytes, hno, List.append_nil]; simp; done)
      rename_i data
      have hchunks : (chunks len.userDataLen data).length =
          (data.length + capacity len - 1) / capacity len := by
        rw [hcap]
        exact chunksAux_length hpos _ _ (Nat.le_refl _)
      refine ⟨?_, ?_⟩
      · show ((t.p.write data).1.outData).length = _
        simp only [MessageProcessor.write, List.length_append, hql, hchunks, sentBytes]
      · show ((t.p.write data).1.outData).flatten = _
        rw [(C27_write _ data).2.1]
        rfl
  have hrcv := Sys.recovers hfeed.1 hfeed.2
    (by rw [hrun]; exact htp) (by rw [hrun]; exact hcy) (pi :: pis).length (by
      rw [hrun]
      show 1 + (feed t.p A.waiting).outData.length ≤ _
      rw [hlen.1]
      omega)
  rw [hrec, hrcv, hrun]
  have e1 : A.plant.queued j = t.queued := h3.sim.same_queued
  have e2 : A.plant.inFlight len oo = t.inFlight := h3.sim.same_inFlight
  have e3 : A.plant.received = t.received := h3.sim.received.symm
  rw [e1, e2, e3]
  show t.received ++ t.inFlight ++
    (feed t.p A.waiting).outData.flatten = _
  rw [hlen.2]
  simp [Sys.queued]

/-- C92: bytes set on the serial module arrive: after any history, if the module is initialised and
the output image is complete, then rounds of a cycle with a complete input image and a look of the
device deliver everything that was in the image or queued and then the bytes; one round per queued
segment, one per segment of the bytes and one more are enough. -/
theorem C92_delivered (oc : Bool) (cfg : CouplerConfig)
    (j : Nat) (len : ProcessDataLength) (oi oo : Word) (s : Plant)
    (h : s.Initial cfg j len oi oo) (evs : List SPEv) (hv : AcceptedValuesS cfg evs)
    (data : List Byte) :
    let r := (Sending.run oc cfg j len oi oo ⟨s, none⟩ evs).plant
    let a := (Sending.run oc cfg j len oi oo ⟨s, none⟩ (evs ++ [.set (.bytes data)])).plant
    r.pending = none → OutputsReady cfg r.out → 2 ≤ r.cycles →
    ∀ pis, a.GoodInputs oc cfg j len oi oo pis →
      1 + r.segments j + (data.length + capacity len - 1) / capacity len ≤ pis.length →
      (a.rounds oc j len oi oo pis).received =
        r.received ++ r.inFlight len oo ++ r.queued j ++ data := by
  obtain ⟨t, tevs, h1, h2, -, -⟩ := Sending.initial_run (oc := oc) h evs
  intro r a hp ho hc pis hg hk
  have hacc : PendingAccepted cfg (Sending.run oc cfg j len oi oo ⟨s, none⟩ evs).plant.c := by
    obtain ⟨t2, -, k2⟩ := h.sim
    exact Sending.pending_run h.c h.serial h.disjoint (s := ⟨s, none⟩) (t := t2)
      ⟨by rw [Sending.cleared_eq k2.write]; exact k2, ⟨s.c, [], h.c, rfl⟩, k2.write⟩
      (initial_pending h) evs hv
  have ha : Sending.run oc cfg j len oi oo ⟨s, none⟩ (evs ++ [.set (.bytes data)]) =
      (Sending.run oc cfg j len oi oo ⟨s, none⟩ evs).step oc cfg j len oi oo (.set (.bytes data)) := by
    simp [Sending.run, List.foldl_append]
  have hacc' := Sending.pending_step (oc := oc) h2.serial h2.reach hacc (.set (.bytes data))
    (fun _ _ h => by cases h)
  obtain ⟨evs1, h3, -, -, h4, -⟩ := h2.step h.c h.serial h.disjoint (.set (.bytes data))
  rw [h4 _ rfl] at h3
  have h3 : Sending.QSim oc cfg j len oi oo _ (t.urun len tevs) := h3
  have hset : ∀ A : Sending, SerialAt A.plant.c j len oi oo →
      (A.step oc cfg j len oi oo (.set (.bytes data))).plant.c.processors = A.plant.c.processors := by
    intro A hA
    simp [Sending.step, setOutput, hA.valid]
  have hset := hset _ h2.serial
  have hq : ∀ A B : Sending, B.plant.c.processors = A.plant.c.processors →
      B.plant.queued j = A.plant.queued j ∧ B.plant.segments j = A.plant.segments j := by
    intro A B h
    simp only [Plant.queued, Plant.segments, h, and_self]
  obtain ⟨hq1, hq2⟩ := hq _ _ hset
  have hae : a = _ := congrArg Sending.plant ha
  have := h3.deliver ((Sys.UInv.initial h1).urun (len := len) tevs).init
    ((Sys.UInv.initial h1).urun (len := len) tevs).ack hp ho hc hacc' pis (hae ▸ hg) (by rw [hq2]; exact hk)
  rw [hae, this, hq1]
  rfl

/-- Two cycles; `[7, 8]` replaces `[9]` before the third cycle takes it, after what the writer was
given. -/
def exSends : List SPEv :=
  [PEv.start exPi, .finish, .start exPi, .finish].map (.ev ∘ .ev) ++
  [.set (.bytes [9#8]), .ev (.ev (.write [1#8])), .set (.bytes [7#8, 8#8])]

def exSends2 : List SPEv :=
  [PEv.start [0#16, 0#16, 0#16, 0#16, 0#16], .finish, .take, .start [0#16, 0x0020#16, 0#16, 0#16, 0#16],
    .finish, .take].map (.ev ∘ .ev)

example : (Sending.run true exCfg 3 .EightBytes 0x0010#16 0x8010#16 ⟨exPlant, none⟩
    (exSends ++ exSends2)).plant.received = [1#8, 7#8, 8#8] := by decide +kernel

example : (Sending.run true exCfg 3 .EightBytes 0x0010#16 0x8010#16 ⟨exPlant, none⟩
    (exSends ++ exSends2)).plant.written = [1#8, 7#8, 8#8] := by decide +kernel

example : (Sending.OnlyUndecodable true exCfg 3 .EightBytes 0x0010#16 0x8010#16 ⟨exPlant, none⟩
    (exSends ++ exSends2)) ∧ AcceptedValuesS exCfg (exSends ++ exSends2) := by
  refine ⟨by simp [exSends, exSends2, Sending.OnlyUndecodable], fun a v h => ?_⟩
  simp [exSends, exSends2] at h

/-- The hypotheses of `C92_delivered` after the two cycles and the write. -/
example : ∃ pis, ((Sending.run true exCfg 3 .EightBytes 0x0010#16 0x8010#16 ⟨exPlant, none⟩
      exSends).plant.GoodInputs true exCfg 3 .EightBytes 0x0010#16 0x8010#16 pis) ∧ pis.length = 3 ∧
    (Sending.run true exCfg 3 .EightBytes 0x0010#16 0x8010#16 ⟨exPlant, none⟩
      exSends.dropLast).plant.pending = none ∧
    OutputsReady exCfg (Sending.run true exCfg 3 .EightBytes 0x0010#16 0x8010#16 ⟨exPlant, none⟩
      exSends.dropLast).plant.out ∧
    (Sending.run true exCfg 3 .EightBytes 0x0010#16 0x8010#16 ⟨exPlant, none⟩
      exSends.dropLast).plant.cycles = 2 ∧
    (Sending.run true exCfg 3 .EightBytes 0x0010#16 0x8010#16 ⟨exPlant, none⟩
      exSends.dropLast).plant.segments 3 = 1 := by
  refine ⟨[[0#16, 0#16, 0#16, 0#16, 0#16], [0#16, 0x0020#16, 0#16, 0#16, 0#16],
    [0#16, 0x0040#16, 0#16, 0#16, 0#16]], ⟨exInput_ready _ (by simp), ⟨_, rfl, by decide +kernel⟩,
    exInput_ready _ (by simp), ⟨_, rfl, by decide +kernel⟩, exInput_ready _ (by simp),
    ⟨_, rfl, by decide +kernel⟩, trivial⟩, rfl, by decide +kernel, ?_, by decide +kernel,
    by decide +kernel⟩
  rw [show (Sending.run true exCfg 3 .EightBytes 0x0010#16 0x8010#16 ⟨exPlant, none⟩
      exSends.dropLast).plant.out = exImage by decide +kernel]
  exact exImage_ready

end Ur20
