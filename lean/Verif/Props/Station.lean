import Verif.Spec.Station
import Verif.Props.Histories
import Verif.Props.Loop
import Verif.Props.Unreliable

/-! # Couplers with failing cycles, lost images and restarts: C89, C90, C91 -/

namespace Ur20

open Spec Com Coupler
open scoped List

theorem run_urun (len : ProcessDataLength) (s : Sys) (evs : List Ev) :
    s.urun len (evs.map .ev) = s.run evs := by
  unfold Sys.urun Sys.run
  rw [List.foldl_map]
  rfl

theorem urun_append (len : ProcessDataLength) (s : Sys) (a b : List UEv) :
    s.urun len (a ++ b) = (s.urun len a).urun len b := by
  simp [Sys.urun, List.foldl_append]

namespace Spec.Plant

/-- The unreliable plant behaves like an unreliable closed system of a processor and the device. -/
structure USim (oc : Bool) (cfg : CouplerConfig) (j : Nat) (len : ProcessDataLength) (oi oo : Word)
    (s : Plant) (t : Sys) : Prop where
  sim : Sim j len oi oo s t
  reach : ReachableFrom oc cfg s.c

theorem step_reachable {oc : Bool} {cfg : CouplerConfig} {j : Nat} {len : ProcessDataLength}
    {oi oo : Word} {s : Plant} (h : ReachableFrom oc cfg s.c) (e : PEv) :
    ReachableFrom oc cfg (s.step oc j len oi oo e).c := by
  cases e with
  | write buf => exact reachable_run h [.write j buf]
  | read n =>
    have := reachable_run h [.read j n]
    simp only [Plant.step]
    split
    · rename_i c' bytes hr
      simpa [runC, COp.apply, hr] using this
    · exact h
  | other op =>
    simp only [Plant.step]
    split
    · exact reachable_run h [op]
    · exact h
  | start pi =>
    simp only [Plant.step]
    split
    · rename_i f c' img _ _ hn
      have := reachable_run h [.next pi s.out]
      simp only [runC, List.foldl, COp.apply, hn] at this
      split
      · split <;> exact this
      · exact h
    · exact h
  | finish => simp only [Plant.step]; split <;> exact h
  | take =>
    simp only [Plant.step]
    split
    · split <;> exact h
    · exact h
  | post seg =>
    simp only [Plant.step]
    split
    · split <;> exact h
    · exact h
  | hide =>
    simp only [Plant.step]
    split
    · split <;> exact h
    · exact h

theorem USim.crash {oc : Bool} {cfg : CouplerConfig} {j : Nat}
    {len : ProcessDataLength} {oi oo : Word} {c0 : Coupler} (h0 : Coupler.new cfg = .ok c0)
    (hs0 : SerialAt c0 j len oi oo) (hd0 : BytesKept (infos c0) j)
    {s : Plant} {t : Sys} (h : USim oc cfg j len oi oo s t) :
    USim oc cfg j len oi oo (s.ustep oc cfg j len oi oo .crash) (t.ustep len .crash) := by
  simp only [Plant.ustep, h0]
  have hp : c0.processors j = some (MessageProcessor.new len) := by
    obtain ⟨cm, hm, rfl, -⟩ := hs0
    obtain ⟨-, -, ms, -, hms⟩ := new_ok h0
    rw [hms] at hm ⊢
    simp only [initial]
    have : ms[j]? = some (Module.com cm) := hm.1
    rw [this]
    rfl
  exact ⟨⟨Inv.new h0, hs0, hd0, hp, ((C13_success cfg).2 c0 h0).2.2.2.2.2 _, rfl, h.sim.out, rfl,
    h.sim.ack, h.sim.rxCnt, h.sim.avail, h.sim.rxData, h.sim.written, h.sim.received, h.sim.seen,
    h.sim.delivered, rfl⟩, ⟨c0, [], h0, rfl⟩⟩

theorem USim.ustep_events {oc : Bool} {cfg : CouplerConfig} {j : Nat}
    {len : ProcessDataLength} {oi oo : Word} {c0 : Coupler} (h0 : Coupler.new cfg = .ok c0)
    (hs0 : SerialAt c0 j len oi oo) (hd0 : BytesKept (infos c0) j)
    {s : Plant} {t : Sys} (h : USim oc cfg j len oi oo s t) (e : UPEv) :
    ∃ evs, USim oc cfg j len oi oo (s.ustep oc cfg j len oi oo e) (t.urun len evs) ∧
      (e ≠ .crash → NoCrash evs) ∧
      ((∃ e', e = .ev e') → ∃ es : List Ev, evs = es.map UEv.ev) ∧
      (∀ pi, e = .failing pi → ¬ Decodable cfg pi s.out → evs = []) ∧
      ((e = .ev .finish ∧ evs = [.ev .finish]) ∨ (e = .lost ∧ evs = [.lost]) ∨
        (e = .crash ∧ evs = [.crash]) ∨
        (∃ pi, e = .failing pi ∧ t.pending = none ∧ ∃ nf rdy, evs = [.ev (.start nf rdy), .lost]) ∨
        (e ≠ .ev .finish ∧ e ≠ .lost ∧ e ≠ .crash ∧
          ∃ es : List Ev, Ev.finish ∉ es ∧ evs = es.map .ev ∧ ∀ pi, e = .failing pi → es = [])) := by
  cases e with
  | ev e =>
    obtain ⟨evs, h1, h2⟩ := h.sim.step_events (oc := oc) e
    refine ⟨evs.map UEv.ev, ⟨?_, step_reachable h.reach e⟩, fun _ e' he => ?_, fun _ => ⟨_, rfl⟩,
      fun _ h => (by cases h), ?_⟩
    · rw [run_urun]; exact h1
    · obtain ⟨x, -, rfl⟩ := List.mem_map.1 he
      simp
    · rcases h2 with ⟨rfl, rfl⟩ | ⟨h2, h3⟩
      · exact .inl ⟨rfl, rfl⟩
      · exact .inr (.inr (.inr (.inr ⟨fun h => h2 (by injection h), by simp, by simp, evs, h3, rfl,
          fun _ h => (by cases h)⟩)))
  | lost =>
    refine ⟨[.lost], ⟨⟨h.sim.inv, h.sim.serial, h.sim.disjoint, h.sim.proc, h.sim.write, h.sim.cycles,
      h.sim.out, rfl, h.sim.ack, h.sim.rxCnt, h.sim.avail, h.sim.rxData, h.sim.written,
      h.sim.received, h.sim.seen, h.sim.delivered, h.sim.fresh⟩, h.reach⟩, fun _ e' he => ?_,
      fun ⟨_, h⟩ => (by cases h), fun _ h => (by cases h), .inr (.inl ⟨rfl, rfl⟩)⟩
    rcases List.mem_singleton.1 he with rfl
    simp
  | crash =>
    exact ⟨[.crash], h.crash h0 hs0 hd0, fun h => absurd rfl h, fun ⟨_, h⟩ => (by cases h),
      fun _ h => (by cases h), .inr (.inr (.inl ⟨rfl, rfl⟩))⟩
  | failing pi =>
    have stay : ∃ evs, USim oc cfg j len oi oo s (t.urun len evs) ∧
        ((UPEv.failing pi) ≠ .crash → NoCrash evs) ∧
        ((∃ e', (UPEv.failing pi) = .ev e') → ∃ es : List Ev, evs = es.map UEv.ev) ∧
        (∀ pi', (UPEv.failing pi) = .failing pi' → ¬ Decodable cfg pi' s.out → evs = []) ∧
        (((UPEv.failing pi) = .ev .finish ∧ evs = [.ev .finish]) ∨
          ((UPEv.failing pi) = .lost ∧ evs = [.lost]) ∨
          ((UPEv.failing pi) = .crash ∧ evs = [.crash]) ∨
          (∃ pi', (UPEv.failing pi) = .failing pi' ∧ t.pending = none ∧
            ∃ nf rdy, evs = [.ev (.start nf rdy), .lost]) ∨
          ((UPEv.failing pi) ≠ .ev .finish ∧ (UPEv.failing pi) ≠ .lost ∧ (UPEv.failing pi) ≠ .crash ∧
            ∃ es : List Ev, Ev.finish ∉ es ∧ evs = es.map .ev ∧
              ∀ pi', (UPEv.failing pi) = .failing pi' → es = [])) :=
      ⟨[], h, fun _ e' he => (by cases he), fun ⟨_, h⟩ => (by cases h), fun _ _ _ => rfl,
        .inr (.inr (.inr (.inr ⟨by simp, by simp, by simp, [], by simp, rfl, fun _ _ => rfl⟩)))⟩
    simp only [Plant.ustep]
    split
    · rename_i c' e hpend hn
      split
      · rename_i hg
        obtain ⟨hfr, hsz⟩ := hg
        have hr' : ReachableFrom oc cfg c' := by
          have := reachable_run h.reach [.next pi s.out]
          simpa [runC, COp.apply, hn] using this
        have hstat := next_static oc s.c pi s.out
        rw [hn] at hstat
        obtain ⟨s1, s2⟩ := Sim.static hstat.1 hstat.2 h.sim.serial h.sim.disjoint
        have hI : c'.Inv := inv_of_reachable hr'
        have htp : t.pending = none := by
          have := h.sim.pending
          rw [hpend] at this
          cases ht : t.pending with
          | none => rfl
          | some x => rw [ht] at this; simp at this
        by_cases hd : Decodable cfg pi s.out
        · obtain ⟨p, i, o, g1, g2, g3, -, -, g6, g7⟩ := decoded_serial h.reach hd h.sim.serial
          rw [hn] at g6 g7
          rw [h.sim.proc] at g1
          cases g1
          rw [h.sim.out] at g3
          cases g3
          rw [h.sim.write] at g6
          simp only [feed] at g6 g7
          obtain ⟨q1, q2, q3, q4⟩ := hfr i g2
          have hinp : t.input i.bufferNearlyFull i.ready = i := by
            unfold Sys.input
            rw [h.sim.avail, h.sim.rxCnt, h.sim.ack, h.sim.rxData, ← q1, ← q2, ← q3, ← q4]
          refine ⟨[.ev (.start i.bufferNearlyFull i.ready), .lost], ⟨?_, ?_⟩, ?_,
            fun ⟨_, h⟩ => (by cases h), fun pi' he hd' => ?_,
            .inr (.inr (.inr (.inl ⟨pi, rfl, htp, _, _, rfl⟩)))⟩
          · have hcond : (2 < t.cycles + 1 ∧ t.avail = true ∧ t.fresh = true) ↔
                (2 < s.cycles + 1 ∧ s.avail = true ∧ s.fresh = true) := by
              rw [h.sim.cycles, h.sim.avail, h.sim.fresh]
            simp only [Plant.failed, if_pos hd, Sys.urun, List.foldl, Sys.ustep, Sys.step, htp,
              Option.isSome_none, Bool.false_eq_true, if_false, hinp]
            by_cases hc : 2 < s.cycles + 1 ∧ s.avail = true ∧ s.fresh = true
            · rw [if_pos hc, if_pos (hcond.2 hc)]
              exact ⟨hI, s1, s2, g6, g7, congrArg (· + 1) h.sim.cycles, h.sim.out, by simp [hpend],
                h.sim.ack, h.sim.rxCnt, h.sim.avail, h.sim.rxData, h.sim.written, h.sim.received,
                by simp [h.sim.seen, h.sim.rxData], h.sim.delivered, rfl⟩
            · rw [if_neg hc, if_neg (fun h => hc (hcond.1 h))]
              exact ⟨hI, s1, s2, g6, g7, congrArg (· + 1) h.sim.cycles, h.sim.out, by simp [hpend],
                h.sim.ack, h.sim.rxCnt, h.sim.avail, h.sim.rxData, h.sim.written,
                h.sim.received, h.sim.seen, h.sim.delivered, h.sim.fresh⟩
          · simp only [Plant.failed, if_pos hd]
            split <;> exact hr'
          · intro _ e' he
            rcases List.mem_cons.1 he with rfl | he
            · simp
            · rcases List.mem_singleton.1 he with rfl; simp
          · cases he
            exact absurd hd hd'
        · have hd' := hd
          unfold Decodable at hd'
          rw [← decode_inputs h.reach, ← decode_outputs h.reach hsz] at hd'
          obtain ⟨-, ins1, h2, -⟩ := not_decoded hd'
          rw [hn] at h2
          simp only at h2
          refine ⟨[], ⟨?_, ?_⟩, fun _ e' he => (by cases he), fun ⟨_, h⟩ => (by cases h),
            fun _ _ _ => rfl, .inr (.inr (.inr (.inr ⟨by simp, by simp, by simp, [], by simp, rfl,
              fun _ _ => rfl⟩)))⟩
          · simp only [Plant.failed, if_neg hd, Sys.urun, List.foldl]
            exact ⟨hI, s1, s2, by rw [h2]; exact h.sim.proc, by rw [h2]; exact h.sim.write,
              h.sim.cycles, h.sim.out, h.sim.pending, h.sim.ack, h.sim.rxCnt, h.sim.avail,
              h.sim.rxData, h.sim.written, h.sim.received, h.sim.seen, h.sim.delivered, h.sim.fresh⟩
          · simp only [Plant.failed, if_neg hd]
            exact hr'
      · exact stay
    · exact stay

theorem USim.ustep {oc : Bool} {cfg : CouplerConfig} {j : Nat}
    {len : ProcessDataLength} {oi oo : Word} {c0 : Coupler} (h0 : Coupler.new cfg = .ok c0)
    (hs0 : SerialAt c0 j len oi oo) (hd0 : BytesKept (infos c0) j)
    {s : Plant} {t : Sys} (h : USim oc cfg j len oi oo s t) (e : UPEv) :
    ∃ evs, USim oc cfg j len oi oo (s.ustep oc cfg j len oi oo e) (t.urun len evs) ∧
      (e ≠ .crash → NoCrash evs) ∧
      ((∃ e', e = .ev e') → ∃ es : List Ev, evs = es.map UEv.ev) ∧
      (∀ pi, e = .failing pi → ¬ Decodable cfg pi s.out → evs = []) := by
  obtain ⟨evs, h1, h2, h3, h4, -⟩ := h.ustep_events h0 hs0 hd0 e
  exact ⟨evs, h1, h2, h3, h4⟩

theorem USim.urun {oc : Bool} {cfg : CouplerConfig} {j : Nat}
    {len : ProcessDataLength} {oi oo : Word} {c0 : Coupler} (h0 : Coupler.new cfg = .ok c0)
    (hs0 : SerialAt c0 j len oi oo) (hd0 : BytesKept (infos c0) j)
    {s : Plant} {t : Sys} (h : USim oc cfg j len oi oo s t) (pevs : List UPEv) :
    ∃ evs, USim oc cfg j len oi oo (s.urun oc cfg j len oi oo pevs) (t.urun len evs) ∧
      (NoCrashes pevs → NoCrash evs) ∧
      (OnlyUndecodable oc cfg j len oi oo s pevs → ∃ es : List Ev, evs = es.map UEv.ev) := by
  induction pevs generalizing s t with
  | nil => exact ⟨[], h, fun _ e he => (by cases he), fun _ => ⟨[], rfl⟩⟩
  | cons e pevs ih =>
    obtain ⟨evs1, h1, n1, e1, f1⟩ := h.ustep h0 hs0 hd0 e
    obtain ⟨evs2, h2, n2, e2⟩ := ih h1
    refine ⟨evs1 ++ evs2, ?_, ?_, ?_⟩
    · rw [urun_append]; exact h2
    · intro hn x hx
      rcases List.mem_append.1 hx with hx | hx
      · exact n1 (hn _ List.mem_cons_self) x hx
      · exact n2 (fun y hy => hn y (List.mem_cons_of_mem _ hy)) x hx
    · intro ho
      cases e with
      | ev e =>
        obtain ⟨es1, rfl⟩ := e1 ⟨_, rfl⟩
        obtain ⟨es2, rfl⟩ := e2 ho
        exact ⟨es1 ++ es2, by simp⟩
      | failing pi =>
        have := f1 pi rfl ho.1
        subst this
        obtain ⟨es2, rfl⟩ := e2 ho.2
        exact ⟨es2, rfl⟩
      | lost => exact ho.elim
      | crash => exact ho.elim

theorem Sim.same_queued {j : Nat} {len : ProcessDataLength} {oi oo : Word} {r : Plant} {u : Sys}
    (h : Sim j len oi oo r u) : r.queued j = u.queued := by
  unfold Plant.queued Sys.queued; rw [h.proc]

theorem Sim.same_inFlight {j : Nat} {len : ProcessDataLength} {oi oo : Word} {r : Plant} {u : Sys}
    (h : Sim j len oi oo r u) : r.inFlight len oo = u.inFlight := by
  unfold Plant.inFlight Sys.inFlight
  rw [h.out, h.ack]
  have hp := h.pending
  cases h5 : r.pending with
  | none =>
    rw [h5] at hp
    cases h6 : u.pending with
    | none => rfl
    | some x => rw [h6] at hp; simp at hp
  | some img =>
    rw [h5] at hp
    cases h6 : u.pending with
    | none => rw [h6] at hp; simp at hp
    | some x =>
      rw [h6] at hp
      simp only [Option.map_some, Option.some.injEq] at hp
      simp only [Option.bind_some, hp]

theorem Initial.urun {oc : Bool} {cfg : CouplerConfig} {j : Nat}
    {len : ProcessDataLength} {oi oo : Word} {s : Plant} (h : s.Initial cfg j len oi oo)
    (pevs : List UPEv) :
    ∃ (t : Sys) (evs : List UEv), t.Initial len ∧
      USim oc cfg j len oi oo (s.urun oc cfg j len oi oo pevs) (t.urun len evs) ∧
      (NoCrashes pevs → NoCrash evs) ∧
      (OnlyUndecodable oc cfg j len oi oo s pevs → ∃ es : List Ev, evs = es.map UEv.ev) := by
  obtain ⟨t, h1, h2⟩ := h.sim
  obtain ⟨evs, h3⟩ := USim.urun (oc := oc) h.c h.serial h.disjoint ⟨h2, ⟨s.c, [], h.c, rfl⟩⟩ pevs
  exact ⟨t, evs, h1, h3⟩


/-- A cycle removes pending writes or leaves them. -/
theorem next_write (oc : Bool) (c : Coupler) (pi po : List Word) (a : Address) :
    (c.next oc pi po).1.write a = none ∨ (c.next oc pi po).1.write a = c.write a := by
  rcases next_cases oc c pi po with ⟨e, h1, h2⟩ | ⟨h1, h2⟩ | ⟨ins, e, h1, h2, h3⟩ |
    ⟨ins, h1, h2, h3⟩ | ⟨ins, outs, h1, h2, h3, h4⟩ | ⟨ins, outs, st, rs, h1, h2, h3, h4⟩
  · rw [h2]; exact .inr rfl
  · rw [h2]; exact .inr rfl
  · rw [h3]; exact .inr rfl
  · rw [h3]; exact .inr rfl
  · rw [h4]; exact .inr rfl
  · rw [h4]
    obtain ⟨-, h6, -, -, h9⟩ := cycleLoop_spec h3
    by_cases ha : a.module < (ins.zip outs).length
    · obtain ⟨st1, r, -, hs, hw, -⟩ := h9 a.module _ _ (List.getElem?_eq_getElem ha)
      simp only [after, hw a (by omega)]
      unfold moduleStep at hs
      split at hs
      · split at hs
        · cases hs
        · split at hs
          · cases hs
          · cases hs
            simp only [remove]
            split
            · exact .inl rfl
            · exact .inr rfl
          · cases hs; exact .inr rfl
        · cases hs; exact .inr rfl
      · cases hs
        simp only [(applyWrites_eq _ _ _ _).2]
        split
        · exact .inl rfl
        · exact .inr rfl
    · exact .inr (h6 a (.inr (by omega)))

theorem pending_call {oc : Bool} {cfg : CouplerConfig} {c : Coupler} {op : COp}
    (h : PendingAccepted cfg c)
    (hc : ∀ a v, op = .setOutput a v → ∀ t, cfg.modules[a.module]? = some t → Accepts t v) :
    PendingAccepted cfg (op.apply oc c) := by
  by_cases hcall : op.IsCall
  · exact pending_calls (oc := oc) (calls := [op]) h
      ⟨fun x hx => by rcases List.mem_singleton.1 hx with rfl; exact hcall,
       fun a v hx => hc a v (List.mem_singleton.1 hx).symm⟩
  · cases op with
    | next pi po =>
      intro a v t hw ht
      rcases next_write oc c pi po a with h1 | h1
      · simp only [COp.apply] at hw; rw [h1] at hw; cases hw
      · simp only [COp.apply] at hw; rw [h1] at hw; exact h a v t hw ht
    | setOutput a v => exact absurd trivial hcall
    | read n k => exact absurd trivial hcall
    | write n b => exact absurd trivial hcall

theorem pending_ustep {oc : Bool} {cfg : CouplerConfig} {j : Nat} {len : ProcessDataLength}
    {oi oo : Word} {s : Plant} (h : PendingAccepted cfg s.c) (e : UPEv)
    (he : ∀ a v, e = .ev (.other (.setOutput a v)) → ∀ t, cfg.modules[a.module]? = some t →
      Accepts t v) : PendingAccepted cfg (s.ustep oc cfg j len oi oo e).c := by
  have hnx : ∀ pi po c' r, s.c.next oc pi po = (c', r) → PendingAccepted cfg c' := by
    intro pi po c' r hn
    have := pending_call (oc := oc) (op := .next pi po) h (fun _ _ h => by cases h)
    simpa [COp.apply, hn] using this
  cases e with
  | ev e =>
    cases e with
    | write buf => exact pending_call (oc := oc) (op := .write j buf) h (fun _ _ h => by cases h)
    | read n =>
      have := pending_call (oc := oc) (op := .read j n) h (fun _ _ h => by cases h)
      simp only [Plant.ustep, Plant.step]
      split
      · rename_i c' bytes hr
        simpa [COp.apply, hr] using this
      · exact h
    | other op =>
      simp only [Plant.ustep, Plant.step]
      split
      · exact pending_call h (fun a v hop => he a v (by rw [hop]))
      · exact h
    | start pi =>
      simp only [Plant.ustep, Plant.step]
      split
      · rename_i f c' img _ _ hn
        have := hnx _ _ _ _ hn
        split
        · split <;> exact this
        · exact h
      · exact h
    | finish => simp only [Plant.ustep, Plant.step]; split <;> exact h
    | take =>
      simp only [Plant.ustep, Plant.step]
      split
      · split <;> exact h
      · exact h
    | post seg =>
      simp only [Plant.ustep, Plant.step]
      split
      · split <;> exact h
      · exact h
    | hide =>
      simp only [Plant.ustep, Plant.step]
      split
      · split <;> exact h
      · exact h
  | failing pi =>
    simp only [Plant.ustep]
    split
    · rename_i c' e hpend hn
      have := hnx _ _ _ _ hn
      split
      · unfold Plant.failed
        split
        · split <;> exact this
        · exact this
      · exact h
    · exact h
  | lost => exact h
  | crash =>
    simp only [Plant.ustep]
    split
    · rename_i c0 h0
      intro a v t hw
      rw [((C13_success cfg).2 c0 h0).2.2.2.2.2 a] at hw
      cases hw
    · exact h

theorem pending_urun {oc : Bool} {cfg : CouplerConfig} {j : Nat} {len : ProcessDataLength}
    {oi oo : Word} {s : Plant} (h : PendingAccepted cfg s.c) (evs : List UPEv)
    (he : AcceptedValues cfg evs) : PendingAccepted cfg (s.urun oc cfg j len oi oo evs).c := by
  induction evs generalizing s with
  | nil => exact h
  | cons e evs ih =>
    exact ih (pending_ustep h e fun a v hx => he a v (by rw [← hx]; exact List.mem_cons_self))
      (fun a v hx => he a v (List.mem_cons_of_mem _ hx))

theorem next_flags (p : MessageProcessor) (t : Sys) (nf rdy : Bool) (o : RsOut) :
    p.next (t.input nf rdy) o = p.next (t.input false true) o := by
  unfold MessageProcessor.next MessageProcessor.nextTx MessageProcessor.nextRx Sys.input
  rfl

theorem round_flags (t : Sys) (nf rdy : Bool) : t.run [.start nf rdy, .finish, .take] = t.round := by
  unfold Sys.round Sys.run
  simp only [List.foldl]
  simp only [Sys.step, next_flags t.p t nf rdy]

/-- A cycle that succeeds is a cycle of the closed system. -/
theorem Sim.start {oc : Bool} {j : Nat} {len : ProcessDataLength} {oi oo : Word} {s : Plant}
    {t : Sys} (h : Sim j len oi oo s t) {pi img : List Word} {c' : Coupler} {f : RsIn}
    (hp : s.pending = none) (hf : inFrame len oi pi = some f) (hpr : s.Presents f)
    (hn : s.c.next oc pi s.out = (c', .ok img)) :
    Sim j len oi oo (s.step oc j len oi oo (.start pi))
      (t.step (.start f.bufferNearlyFull f.ready)) := by
  obtain ⟨c, cy, out, pend, ack, rxc, av, rxd, wr, rec, seen, dlv, fr⟩ := s
  obtain ⟨tp, tcy, tout, tpend, tack, trxc, tav, trxd, twr, trec, tseen, tdlv, tfr⟩ := t
  obtain ⟨hinv, hser, hdis, hproc, hw, hcy, hout, hpend, hack, hrx, hav, hrd, hwr, hrec, hseen, hdlv,
    hfr⟩ := h
  simp only at hinv hser hdis hproc hw hcy hout hpend hack hrx hav hrd hwr hrec hseen hdlv hfr hp hn
  subst hcy hack hrx hav hrd hwr hrec hseen hdlv hfr hp
  have htp : tpend = none := by
    cases tpend with
    | none => rfl
    | some x => simp at hpend
  subst htp
  obtain ⟨p, i, o, lt, g1, g2, g3, -, -, -, g7, g8, g9⟩ := serial_cycle hinv hser hn
  rw [hf] at g2
  cases g2
  rw [hproc] at g1
  cases g1
  rw [hout] at g3
  cases g3
  rw [hw] at g7 g9
  have g9 := g9 hdis
  simp only [feed] at g7 g9
  have hst := next_static oc c pi out
  rw [hn] at hst
  obtain ⟨s1, s2⟩ := Sim.static hst.1 hst.2 hser hdis
  have hI : c'.Inv := by have := hinv.next oc pi out; rwa [hn] at this
  have hpr' := hpr
  obtain ⟨q1, q2, q3, q4⟩ := hpr'
  simp only at q1 q2 q3 q4
  have hinp : Sys.input ⟨tp, tcy, tout, none, tack, trxc, tav, trxd, twr, trec, tseen, tdlv,
      tfr⟩ f.bufferNearlyFull f.ready = f := by
    obtain ⟨x1, x2, x3, x4, x5, x6⟩ := f
    simp only at q1 q2 q3 q4
    subst q1 q2 q3 q4
    rfl
  simp only [Plant.step, hf, hn, if_pos hpr, Sys.step, Option.isSome_none, Bool.false_eq_true,
    if_false, hinp]
  split
  · exact ⟨hI, s1, s2, g7, g8, rfl, hout, by simpa using g9, rfl, rfl, rfl, rfl, rfl, rfl, rfl,
      rfl, rfl⟩
  · exact ⟨hI, s1, s2, g7, g8, rfl, hout, by simpa using g9, rfl, rfl, rfl, rfl, rfl, rfl, rfl,
      rfl, rfl⟩

theorem Sim.finish {oc : Bool} {j : Nat} {len : ProcessDataLength} {oi oo : Word} {s : Plant}
    {t : Sys} (h : Sim j len oi oo s t) :
    Sim j len oi oo (s.step oc j len oi oo .finish) (t.step .finish) := by
  have hpend := h.pending
  simp only [Plant.step, Sys.step]
  cases hs : s.pending with
  | none =>
    rw [hs] at hpend
    cases ht : t.pending with
    | none => exact h
    | some x => rw [ht] at hpend; simp at hpend
  | some img =>
    rw [hs] at hpend
    cases ht : t.pending with
    | none => rw [ht] at hpend; simp at hpend
    | some r =>
      rw [ht] at hpend
      simp only [Option.map_some, Option.some.injEq] at hpend
      exact ⟨h.inv, h.serial, h.disjoint, h.proc, h.write, h.cycles, hpend, rfl, h.ack, h.rxCnt,
        h.avail, h.rxData, h.written, h.received, h.seen, h.delivered, h.fresh⟩

theorem Sim.take {oc : Bool} {j : Nat} {len : ProcessDataLength} {oi oo : Word} {s : Plant}
    {t : Sys} (h : Sim j len oi oo s t) :
    Sim j len oi oo (s.step oc j len oi oo .take) (t.step .take) := by
  simp only [Plant.step, Sys.step, h.out, h.ack]
  split
  · exact ⟨h.inv, h.serial, h.disjoint, h.proc, h.write, h.cycles, h.out, h.pending, rfl, h.rxCnt,
      h.avail, h.rxData, h.written, by simp [h.received], h.seen, h.delivered, h.fresh⟩
  · exact h

theorem Sim.write_step {oc : Bool} {j : Nat} {len : ProcessDataLength} {oi oo : Word} {s : Plant}
    {t : Sys} (h : Sim j len oi oo s t) (buf : List Byte) :
    Sim j len oi oo (s.step oc j len oi oo (.write buf)) (t.step (.write buf)) := by
  have hst := apply_static oc s.c (.write j buf)
  have hI := h.inv.apply oc (.write j buf)
  simp only [COp.apply] at hst hI
  obtain ⟨h1, h2⟩ := Sim.static hst.1 hst.2 h.serial h.disjoint
  refine ⟨hI, h1, h2, ?_, ?_, h.cycles, h.out, h.pending, h.ack, h.rxCnt, h.avail, h.rxData, ?_,
    h.received, h.seen, h.delivered, h.fresh⟩
  · simp [Plant.step, writeBytes, h.proc, setProcessor, Sys.step]
  · simpa [Plant.step, writeBytes, h.proc, setProcessor] using h.write
  · simp [Plant.step, Sys.step, h.written]

/-- A state from which cycles with complete input images succeed. -/
structure Ready (oc : Bool) (cfg : CouplerConfig) (j : Nat) (len : ProcessDataLength) (oi oo : Word)
    (s : Plant) (t : Sys) : Prop where
  sim : USim oc cfg j len oi oo s t
  pending : s.pending = none
  out : OutputsReady cfg s.out
  accepted : PendingAccepted cfg s.c

theorem Sim.post {oc : Bool} {j : Nat} {len : ProcessDataLength} {oi oo : Word} {s : Plant}
    {t : Sys} (h : Sim j len oi oo s t) (seg : List Byte) :
    Sim j len oi oo (s.step oc j len oi oo (.post seg)) (t.step (.post seg)) := by
  simp only [Plant.step, Sys.step, h.out, h.rxCnt]
  split
  · exact ⟨h.inv, h.serial, h.disjoint, h.proc, h.write, h.cycles, h.out, h.pending, h.ack, rfl,
      rfl, rfl, h.written, h.received, h.seen, h.delivered, rfl⟩
  · exact h

theorem Ready.post {oc : Bool} {cfg : CouplerConfig} {j : Nat}
    {len : ProcessDataLength} {oi oo : Word} {s : Plant} {t : Sys}
    (h : Ready oc cfg j len oi oo s t) (seg : List Byte) :
    Ready oc cfg j len oi oo (s.step oc j len oi oo (.post seg)) (t.step (.post seg)) := by
  refine ⟨⟨h.sim.sim.post seg, step_reachable h.sim.reach _⟩, ?_, ?_, ?_⟩
  · simp only [Plant.step, h.sim.sim.out]
    split <;> exact h.pending
  · simp only [Plant.step, h.sim.sim.out]
    split <;> exact h.out
  · simp only [Plant.step, h.sim.sim.out]
    split <;> exact h.accepted

theorem Ready.take {oc : Bool} {cfg : CouplerConfig} {j : Nat}
    {len : ProcessDataLength} {oi oo : Word} {s : Plant} {t : Sys}
    (h : Ready oc cfg j len oi oo s t) :
    Ready oc cfg j len oi oo (s.step oc j len oi oo .take) (t.step .take) := by
  refine ⟨⟨h.sim.sim.take (oc := oc), step_reachable h.sim.reach _⟩, ?_, ?_, ?_⟩
  · simp only [Plant.step, h.sim.sim.out]
    split <;> exact h.pending
  · simp only [Plant.step, h.sim.sim.out]
    split <;> exact h.out
  · simp only [Plant.step, h.sim.sim.out]
    split <;> exact h.accepted

/-- A complete cycle. -/
theorem Ready.cycle {oc : Bool} {cfg : CouplerConfig} {j : Nat}
    {len : ProcessDataLength} {oi oo : Word} {s : Plant} {t : Sys}
    (h : Ready oc cfg j len oi oo s t) {pi : List Word} (hi : InputsReady cfg pi) {f : RsIn}
    (hf : inFrame len oi pi = some f) (hpr : s.Presents f) :
    Ready oc cfg j len oi oo (s.run oc j len oi oo [.start pi, .finish])
      (t.run [.start f.bufferNearlyFull f.ready, .finish]) := by
  have hcom : CompleteImages cfg pi s.out := ⟨hi, h.out.registers⟩
  have henc : Encodable cfg s.c.write s.out :=
    ⟨fun j t par o i ch v hcfg _ hw => h.accepted _ _ _ hw hcfg.1,
      fun j t par o i ch us hcfg hno ht hch _ =>
        h.out.preset j t par o i ch us hcfg hno ht hch⟩
  obtain ⟨c', img, hn, -⟩ := C68_success oc cfg _ h.sim.reach pi s.out hcom henc
  have h1 := h.sim.sim.start h.pending hf hpr hn
  have hreach : ReachableFrom oc cfg (s.run oc j len oi oo [.start pi, .finish]).c :=
    step_reachable (j := j) (len := len) (oi := oi) (oo := oo)
      (step_reachable h.sim.reach (.start pi)) .finish
  have hst : (s.step oc j len oi oo (.start pi)).pending = some img ∧
      (s.step oc j len oi oo (.start pi)).c = c' := by
    simp only [Plant.step, h.pending, hf, hn, if_pos hpr]
    split <;> exact ⟨rfl, rfl⟩
  have hfin : (s.run oc j len oi oo [.start pi, .finish]).pending = none ∧
      (s.run oc j len oi oo [.start pi, .finish]).out = img ∧
      (s.run oc j len oi oo [.start pi, .finish]).c = c' := by
    change ((s.step oc j len oi oo (.start pi)).step oc j len oi oo .finish).pending = none ∧
      ((s.step oc j len oi oo (.start pi)).step oc j len oi oo .finish).out = img ∧
      ((s.step oc j len oi oo (.start pi)).step oc j len oi oo .finish).c = c'
    generalize s.step oc j len oi oo (.start pi) = s1 at hst
    simp only [Plant.step, hst.1]
    exact ⟨trivial, trivial, hst.2⟩
  refine ⟨⟨h1.finish (oc := oc), hreach⟩, hfin.1, ?_, ?_⟩
  · rw [hfin.2.1]
    exact outputs_returned h.sim.reach h.out hcom henc hn
  · rw [hfin.2.2]
    have := pending_call (oc := oc) (op := .next pi s.out) h.accepted (fun _ _ h => by cases h)
    simpa [COp.apply, hn] using this

theorem Ready.round {oc : Bool} {cfg : CouplerConfig} {j : Nat}
    {len : ProcessDataLength} {oi oo : Word} {s : Plant} {t : Sys}
    (h : Ready oc cfg j len oi oo s t) {pi : List Word} (hi : InputsReady cfg pi)
    (hf : ∃ f, inFrame len oi pi = some f ∧ s.Presents f) :
    Ready oc cfg j len oi oo (s.round oc j len oi oo pi) t.round := by
  obtain ⟨f, hf, hpr⟩ := hf
  rw [← round_flags t f.bufferNearlyFull f.ready]
  exact (h.cycle hi hf hpr).take

theorem Ready.rounds {oc : Bool} {cfg : CouplerConfig} {j : Nat}
    {len : ProcessDataLength} {oi oo : Word} {s : Plant} {t : Sys}
    (h : Ready oc cfg j len oi oo s t) (pis : List (List Word))
    (hp : GoodInputs oc cfg j len oi oo s pis) :
    Ready oc cfg j len oi oo (s.rounds oc j len oi oo pis) (Ur20.rounds pis.length t) := by
  induction pis generalizing s t with
  | nil => exact h
  | cons pi pis ih => exact ih (h.round hp.1 hp.2.1) hp.2.2

/-- The number of segments in the module's transmit queue. -/
def segments (s : Plant) (j : Nat) : Nat :=
  match s.c.processors j with
  | some p => p.outData.length
  | none => 0

end Spec.Plant

/-! ### C89: failing cycles -/

/-- C89: failing cycles lose no data: if no image is lost and the application does not crash the
device takes over a prefix of the bytes written. -/
def C89_statement : Prop :=
  ∀ (oc : Bool) (cfg : CouplerConfig) (j : Nat) (len : ProcessDataLength) (oi oo : Word) (s : Plant),
    s.Initial cfg j len oi oo → ∀ evs : List UPEv, OnlyFailing evs →
    (s.urun oc cfg j len oi oo evs).received <+: (s.urun oc cfg j len oi oo evs).written

theorem plant_urun_ev {oc : Bool} {cfg : CouplerConfig} {j : Nat} {len : ProcessDataLength}
    {oi oo : Word} (s : Plant) (evs : List PEv) (rest : List UPEv) :
    s.urun oc cfg j len oi oo (evs.map .ev ++ rest) =
      (s.run oc j len oi oo evs).urun oc cfg j len oi oo rest := by
  unfold Plant.urun Plant.run
  rw [List.foldl_append, List.foldl_map]
  rfl

/-- Two cycles, seven bytes written, and a value of the wrong kind for a digital output. -/
def exBefore : List PEv :=
  [.start exPi, .finish, .start exPi, .finish, .write [1#8, 2#8, 3#8, 4#8, 5#8, 6#8, 7#8],
   .other (.setOutput ⟨0, 0⟩ (.bytes []))]

/-- The image after the two cycles. -/
def exImage : List Word := [0x5503#16, 0x0080#16, 0#16, 0#16, 0#16]

theorem exBefore_out :
    (exPlant.run true 3 .EightBytes 0x0010#16 0x8010#16 exBefore).out = exImage := by
  decide +kernel

theorem exImage_ready : OutputsReady exCfg exImage := by
  constructor
  · intro j t par o i h hn
    rcases exCfg_at h with ⟨rfl, rfl, rfl, rfl, rfl⟩ | ⟨rfl, rfl, rfl, rfl, rfl⟩ |
      ⟨rfl, rfl, rfl, rfl, rfl⟩ | ⟨rfl, rfl, rfl, rfl, rfl⟩
    · refine ⟨by unfold InPlace; decide, by unfold Covers; decide, fun h => by cases h⟩
    · refine ⟨by unfold InPlace; decide, by unfold Covers; decide, fun h => by cases h⟩
    · exact absurd rfl hn
    · refine ⟨by unfold InPlace; decide, by unfold Covers; decide, fun _ b hb => ?_⟩
      rw [show byteAt exImage _ = some 0#8 by decide] at hb
      cases hb; decide
  · intro j t par o i ch us h hno ht
    rcases exCfg_at h with ⟨rfl, rfl, rfl, rfl, rfl⟩ | ⟨rfl, rfl, rfl, rfl, rfl⟩ |
      ⟨rfl, rfl, rfl, rfl, rfl⟩ | ⟨rfl, rfl, rfl, rfl, rfl⟩ <;> cases ht

theorem exImage_decodable : Decodable exCfg exPi exImage := by
  refine ⟨ex_complete.input, fun j t par o i h hno => ⟨?_, (exImage_ready.registers j t par o i h hno).2⟩⟩
  rcases exCfg_at h with ⟨rfl, rfl, rfl, rfl, rfl⟩ | ⟨rfl, rfl, rfl, rfl, rfl⟩ |
    ⟨rfl, rfl, rfl, rfl, rfl⟩ | ⟨rfl, rfl, rfl, rfl, rfl⟩
  · decide
  · decide
  · exact absurd rfl hno
  · decide

/-- The failing cycle of the example. -/
theorem exFailing : (exPlant.run true 3 .EightBytes 0x0010#16 0x8010#16 exBefore).ustep true exCfg 3
      .EightBytes 0x0010#16 0x8010#16 (.failing exPi) =
    { exPlant.run true 3 .EightBytes 0x0010#16 0x8010#16 exBefore with
      c := ((exPlant.run true 3 .EightBytes 0x0010#16 0x8010#16 exBefore).c.next true exPi exImage).1
      cycles := 3 } := by
  have hn : (exPlant.run true 3 .EightBytes 0x0010#16 0x8010#16 exBefore).c.next true exPi exImage =
      (((exPlant.run true 3 .EightBytes 0x0010#16 0x8010#16 exBefore).c.next true exPi exImage).1,
        .err .channelValue) := Prod.ext rfl (by decide +kernel)
  have hf : inFrame .EightBytes 0x0010#16 exPi = some ⟨false, false, 0, 0, false, []⟩ := by decide
  have hp : (exPlant.run true 3 .EightBytes 0x0010#16 0x8010#16 exBefore).Presents
      ⟨false, false, 0, 0, false, []⟩ := by decide +kernel
  have hpe : (exPlant.run true 3 .EightBytes 0x0010#16 0x8010#16 exBefore).pending = none := by
    decide +kernel
  have ho := exBefore_out
  have hc : (exPlant.run true 3 .EightBytes 0x0010#16 0x8010#16 exBefore).cycles = 2 := by
    decide +kernel
  have ha : (exPlant.run true 3 .EightBytes 0x0010#16 0x8010#16 exBefore).avail = false := by
    decide +kernel
  generalize exPlant.run true 3 .EightBytes 0x0010#16 0x8010#16 exBefore = s at *
  simp only [Plant.ustep, hpe, ho]
  split
  · rename_i c' e hn'
    have hc' := hn.symm.trans hn'
    simp only [Prod.mk.injEq] at hc'
    rw [if_pos ⟨fun f h => by rw [hf] at h; cases h; exact hp, fun h => by cases h⟩, Plant.failed,
      if_pos (by rw [ho]; exact exImage_decodable), if_neg (by simp [ha]), hc, hpe, ho, hc'.1]
  · rename_i hx
    exact absurd hn (hx _ _ rfl)

/-- C89 is false: a cycle that fails because a value for another module is of the wrong kind takes a
segment from the queue, which is lost. -/
theorem C89_statement_false : ¬ C89_statement := by
  intro h
  have := h true exCfg 3 .EightBytes 0x0010#16 0x8010#16 exPlant exPlant_initial
    (exBefore.map .ev ++ .failing exPi :: [PEv.start exPi, .finish, .take].map .ev) (by
      intro e he
      simp only [exBefore, List.map, List.cons_append, List.nil_append, List.mem_cons,
        List.not_mem_nil, or_false] at he
      rcases he with rfl | rfl | rfl | rfl | rfl | rfl | rfl | rfl | rfl | rfl <;> simp)
  rw [plant_urun_ev, Plant.urun, List.foldl_cons, exFailing] at this
  change (Plant.urun _ _ _ _ _ _ _ _).received <+: (Plant.urun _ _ _ _ _ _ _ _).written at this
  rw [← List.append_nil (List.map _ _), plant_urun_ev] at this
  revert this
  change ¬ ((Plant.run _ _ _ _ _ _ _).received <+: (Plant.run _ _ _ _ _ _ _).written)
  decide +kernel

/-- C89: whatever cycles fail, whatever images are lost and wherever the application crashes, the
device takes over bytes that were written, each at most once and in the order they were written;
together with those in flight and those still queued. -/
theorem C89_order_partial (oc : Bool) (cfg : CouplerConfig) (j : Nat)
    (len : ProcessDataLength) (oi oo : Word) (s : Plant) (h : s.Initial cfg j len oi oo)
    (evs : List UPEv) :
    let r := s.urun oc cfg j len oi oo evs
    r.received ++ r.inFlight len oo ++ r.queued j <+ r.written := by
  obtain ⟨t, tevs, h1, h2, -, -⟩ := h.urun (oc := oc) evs
  have h3 := C83_order_partial h1 tevs
  simp only
  rw [h2.sim.same_queued, h2.sim.same_inFlight, ← h2.sim.received, ← h2.sim.written]
  exact h3

/-- C89: cycles that fail because their images cannot be decoded lose nothing. -/
theorem C89_undecodable_partial (oc : Bool) (cfg : CouplerConfig)
    (j : Nat) (len : ProcessDataLength) (oi oo : Word) (s : Plant)
    (h : s.Initial cfg j len oi oo) (evs : List UPEv)
    (hu : s.OnlyUndecodable oc cfg j len oi oo evs) :
    let r := s.urun oc cfg j len oi oo evs
    r.received ++ r.inFlight len oo ++ r.queued j = r.written := by
  obtain ⟨t, tevs, h1, h2, -, h3⟩ := h.urun (oc := oc) evs
  obtain ⟨es, rfl⟩ := h3 hu
  rw [run_urun] at h2
  have h4 := C25_exactly_once len t h1 es
  simp only at h4 ⊢
  rw [h2.sim.same_queued, h2.sim.same_inFlight, ← h2.sim.received, ← h2.sim.written]
  exact h4

/-- C89: nothing that was read is lost: as long as the application does not crash the bytes read and
those still buffered are exactly the segments the device showed to a cycle whose images could be
decoded, each once and in order, whether the cycle succeeded or not. -/
theorem C89_receive_partial (oc : Bool) (cfg : CouplerConfig) (j : Nat)
    (len : ProcessDataLength) (oi oo : Word) (s : Plant) (h : s.Initial cfg j len oi oo)
    (evs : List UPEv) (hc : NoCrashes evs) :
    let r := s.urun oc cfg j len oi oo evs
    r.delivered ++ r.buffered j = r.seen := by
  obtain ⟨t, tevs, h1, h2, h3, -⟩ := h.urun (oc := oc) evs
  have h4 := C83_receive_partial h1 tevs (h3 hc)
  simp only
  unfold Plant.buffered
  rw [h2.sim.proc, ← h2.sim.delivered, ← h2.sim.seen]
  exact h4

/-! ### C90: recovery -/

theorem initial_pending {cfg : CouplerConfig} {j : Nat} {len : ProcessDataLength} {oi oo : Word}
    {s : Plant} (h : s.Initial cfg j len oi oo) : PendingAccepted cfg s.c := by
  intro a v t hw
  rw [((C13_success cfg).2 s.c h.c).2.2.2.2.2 a] at hw
  cases hw

/-- C90: after any history of failing cycles, losses and crashes the transmission goes on: if the
module is initialised and the output image is complete, then rounds of a cycle with a complete input
image and a look of the device deliver everything that was in the image or queued. -/
theorem C90_recovers (oc : Bool) (cfg : CouplerConfig)
    (j : Nat) (len : ProcessDataLength) (oi oo : Word) (s : Plant)
    (h : s.Initial cfg j len oi oo) (evs : List UPEv) (hv : AcceptedValues cfg evs) :
    let r := s.urun oc cfg j len oi oo evs
    r.pending = none → OutputsReady cfg r.out → 2 ≤ r.cycles →
    ∀ pis, r.GoodInputs oc cfg j len oi oo pis → 1 + r.segments j ≤ pis.length →
      (r.rounds oc j len oi oo pis).received = r.received ++ r.inFlight len oo ++ r.queued j := by
  obtain ⟨t, tevs, h1, h2, -, -⟩ := h.urun (oc := oc) evs
  intro r hp ho hc pis hg hk
  have hr := Plant.Ready.rounds ⟨h2, hp, ho, Plant.pending_urun (initial_pending h) evs hv⟩ pis hg
  have hp' : (t.urun len tevs).pending = none := by
    have := h2.sim.pending
    rw [show (s.urun oc cfg j len oi oo evs).pending = none from hp] at this
    cases ht : (t.urun len tevs).pending with
    | none => rfl
    | some x => rw [ht] at this; simp at this
  have hk' : 1 + (t.urun len tevs).p.outData.length ≤ pis.length := by
    have : r.segments j = (t.urun len tevs).p.outData.length := by
      unfold Plant.segments; rw [h2.sim.proc]
    omega
  have := C83_recovers_partial h1 tevs hp' (by rw [h2.sim.cycles]; exact hc) pis.length hk'
  rw [show (r.rounds oc j len oi oo pis).received = _ from hr.sim.sim.received.symm, this,
    h2.sim.same_queued, h2.sim.same_inFlight, ← h2.sim.received]

/-- C90: after a crash, at any point of any history, what the restarted application writes is
transmitted, directly after the bytes the device had taken over before the crash. -/
theorem C90_after_crash (oc : Bool) (cfg : CouplerConfig)
    (j : Nat) (len : ProcessDataLength) (oi oo : Word) (s : Plant)
    (h : s.Initial cfg j len oi oo) (evs : List UPEv) (w : List Byte) :
    let r := s.urun oc cfg j len oi oo evs
    let a := r.urun oc cfg j len oi oo [.crash, .ev (.write w)]
    OutputsReady cfg r.out →
    ∀ pis, a.GoodInputs oc cfg j len oi oo pis → 3 + a.segments j ≤ pis.length →
      (a.rounds oc j len oi oo pis).received = r.received ++ w := by
  obtain ⟨t, tevs, h1, h2, -, -⟩ := h.urun (oc := oc) evs
  intro r a ho pis hg hk
  have hc := h2.crash h.c h.serial h.disjoint
  have hw : Plant.USim oc cfg j len oi oo a ((t.urun len tevs).urun len [.crash, .ev (.write w)]) :=
    ⟨hc.sim.write_step (oc := oc) w, Plant.step_reachable (j := j) (len := len) (oi := oi) (oo := oo)
      hc.reach (.write w)⟩
  have ha : a.pending = none ∧ a.out = r.out := by
    show ((r.ustep oc cfg j len oi oo .crash).step oc j len oi oo (.write w)).pending = none ∧
      ((r.ustep oc cfg j len oi oo .crash).step oc j len oi oo (.write w)).out = r.out
    simp only [Plant.ustep, Plant.step, h.c, and_self]
  have hacc : PendingAccepted cfg a.c := by
    refine Plant.pending_call (oc := oc) (op := .write j w) ?_ (fun _ _ h => by cases h)
    simp only [Plant.ustep, h.c]
    exact initial_pending h
  have hr := Plant.Ready.rounds ⟨hw, ha.1, by rw [ha.2]; exact ho, hacc⟩ pis hg
  have hk' : 3 + ((t.urun len tevs).urun len [.crash, .ev (.write w)]).p.outData.length ≤
      pis.length := by
    have : a.segments j = ((t.urun len tevs).urun len [.crash, .ev (.write w)]).p.outData.length := by
      unfold Plant.segments; rw [hw.sim.proc]
    omega
  have := C84_after_crash h1 tevs w pis.length hk'
  rw [show (a.rounds oc j len oi oo pis).received = _ from hr.sim.sim.received.symm, this,
    ← show _ = r.received from h2.sim.received]

/-! ### C91: progress of the receive direction -/

/-- One segment presented in the closed system. -/
theorem sys_receive (t : Sys) (seg : List Byte) (nf rdy : Bool) (hp : t.pending = none)
    (hc : 2 ≤ t.cycles) (ha : t.out.rxCntAck = t.rxCnt) :
    let u := t.run [.post seg, .start nf rdy, .finish]
    u.pending = none ∧ 2 ≤ u.cycles ∧ u.out.rxCntAck = u.rxCnt ∧ u.seen = t.seen ++ seg ∧
      u.delivered = t.delivered := by
  have key : ∀ (i : RsIn), (t.p.next i t.out).2.rxCntAck = i.rxCnt := fun i => C29_acknowledge t.p i t.out
  simp only [Sys.run, List.foldl, Sys.step, ha, hp, Option.isSome_none, if_true,
    Bool.false_eq_true, if_false]
  rw [if_pos ⟨by omega, trivial, trivial⟩]
  simp only [Sys.input]
  exact ⟨trivial, by omega, key _, trivial, trivial⟩

/-- C91: a complete cycle acknowledges the segment the device presents, so that it can present the
next one. -/
theorem C91_acknowledged (oc : Bool) (cfg : CouplerConfig)
    (j : Nat) (len : ProcessDataLength) (oi oo : Word) (s : Plant)
    (h : s.Initial cfg j len oi oo) (evs : List UPEv) (hv : AcceptedValues cfg evs) :
    let r := s.urun oc cfg j len oi oo evs
    r.pending = none → OutputsReady cfg r.out →
    ∀ pi f, InputsReady cfg pi → inFrame len oi pi = some f → r.Presents f →
      (r.run oc j len oi oo [.start pi, .finish]).Acknowledged len oo := by
  obtain ⟨t, tevs, h1, h2, -, -⟩ := h.urun (oc := oc) evs
  intro r hp ho pi f hi hf hpr
  have hr := Plant.Ready.cycle ⟨h2, hp, ho, Plant.pending_urun (initial_pending h) evs hv⟩ hi hf
    hpr
  refine ⟨_, hr.sim.sim.out, ?_⟩
  rw [← hr.sim.sim.rxCnt]
  have htp : (t.urun len tevs).pending = none := by
    have := h2.sim.pending
    rw [show (s.urun oc cfg j len oi oo evs).pending = none from hp] at this
    cases ht : (t.urun len tevs).pending with
    | none => rfl
    | some x => rw [ht] at this; simp at this
  generalize t.urun len tevs = u at htp
  have key : ∀ (i : RsIn), (u.p.next i u.out).2.rxCntAck = i.rxCnt := fun i => C29_acknowledge u.p i u.out
  simp only [Sys.run, List.foldl, Sys.step, htp, Option.isSome_none, Bool.false_eq_true, if_false]
  split
  · rename_i r' hr'
    split at hr' <;> cases hr' <;> simp [key, Sys.input] <;> split <;> rfl
  · rename_i hr'
    split at hr' <;> cases hr'

/-- C91: a device that presents one segment after the other, each in a complete cycle, gets all of
them across: after any history, once the module is initialised and the last segment acknowledged, the
segments can be read, after what was already waiting. -/
theorem C91_received (oc : Bool) (cfg : CouplerConfig)
    (j : Nat) (len : ProcessDataLength) (oi oo : Word) (s : Plant)
    (h : s.Initial cfg j len oi oo) (evs : List UPEv) (hv : AcceptedValues cfg evs) :
    let r := s.urun oc cfg j len oi oo evs
    r.pending = none → OutputsReady cfg r.out → 2 ≤ r.cycles → r.Acknowledged len oo →
    ∀ segs, r.GoodSegments oc cfg j len oi oo segs →
    ∀ n, (r.buffered j ++ (segs.map (·.1)).flatten).length ≤ n →
      ∃ c', (r.receives oc j len oi oo segs).c.read j n =
        .ok (c', some (r.buffered j ++ (segs.map (·.1)).flatten)) := by
  obtain ⟨t, tevs, h1, h2, -, -⟩ := h.urun (oc := oc) evs
  intro r hp ho hc ha segs hg n hn
  have hr : Plant.Ready oc cfg j len oi oo r (t.urun len tevs) :=
    ⟨h2, hp, ho, Plant.pending_urun (initial_pending h) evs hv⟩
  have hrx : ∃ d n, ((t.urun len tevs).relog d n).RxInv := by
    obtain ⟨d0, n0, d, n, -, -, -, h4⟩ := (Sys.RxSince.initial h1).urun (len := len) tevs
    exact ⟨d, n, h4⟩
  have hack : (t.urun len tevs).out.rxCntAck = (t.urun len tevs).rxCnt := by
    obtain ⟨f, hf, hfa⟩ := ha
    have := h2.sim.out
    rw [show outFrame len oo (s.urun oc cfg j len oi oo evs).out = some f from hf] at this
    cases this
    rw [h2.sim.rxCnt]
    exact hfa
  have hcy : 2 ≤ (t.urun len tevs).cycles := by rw [h2.sim.cycles]; exact hc
  generalize t.urun len tevs = u at hr hrx hack hcy
  have hb : r.buffered j = u.p.inData := by
    unfold Plant.buffered; rw [hr.sim.sim.proc]
  -- all segments
  have key : ∀ (segs : List (List Byte × List Word)) (r : Plant) (u : Sys),
      Plant.Ready oc cfg j len oi oo r u → (∃ d n, (u.relog d n).RxInv) →
      u.out.rxCntAck = u.rxCnt → 2 ≤ u.cycles → r.GoodSegments oc cfg j len oi oo segs →
      ∃ v : Sys, Plant.Ready oc cfg j len oi oo (r.receives oc j len oi oo segs) v ∧
        v.p.inData = u.p.inData ++ (segs.map (·.1)).flatten := by
    intro segs
    induction segs with
    | nil => exact fun r u h1 _ _ _ _ => ⟨u, h1, by simp⟩
    | cons x segs ih =>
      intro r u hr ⟨d, n, hrx⟩ hack hcy hg
      obtain ⟨g1, ⟨f, g2, g3⟩, g4⟩ := hg
      have hup : u.pending = none := by
        have := hr.sim.sim.pending
        rw [hr.pending] at this
        cases ht : u.pending with
        | none => rfl
        | some x => rw [ht] at this; simp at this
      obtain ⟨a1, a2, a3, a4, a5⟩ := sys_receive u x.1 f.bufferNearlyFull f.ready hup hcy hack
      have hr' := (hr.post x.1).cycle g1 g2 g3
      have hrx' : ((u.relog d n).run [.post x.1, .start f.bufferNearlyFull f.ready, .finish]).RxInv :=
        ((hrx.step (.post x.1)).step (.start f.bufferNearlyFull f.ready)).step .finish
      obtain ⟨d', n', b1, b2, b3⟩ := Sys.relog_urun (len := len) u
        ([Ev.post x.1, .start f.bufferNearlyFull f.ready, .finish].map UEv.ev)
      rw [run_urun] at b1 b2
      have b3 := b3 d n
      rw [run_urun, run_urun] at b3
      rw [b3] at hrx'
      rw [b1] at a5
      rw [b2] at a4
      have hd' : d' = [] := by simpa using a5
      have hn' : n' = x.1 := List.append_cancel_left a4
      have hbytes := hrx'.bytes
      have hbytes0 := hrx.bytes
      simp only [Sys.relog, hd', hn', List.append_nil] at hbytes hbytes0
      rw [← hbytes0, List.append_assoc] at hbytes
      have hin := List.append_cancel_left hbytes
      obtain ⟨v, c1, c2⟩ := ih _ _ hr' ⟨_, _, hrx'⟩ a3 a2 g4
      refine ⟨v, c1, ?_⟩
      rw [c2]
      change (u.run [.post x.1, .start f.bufferNearlyFull f.ready, .finish]).p.inData ++ _ = _
      rw [hin]
      simp
  obtain ⟨v, b1, hin⟩ := key segs r u hr hrx hack hcy hg
  rw [← hb] at hin
  have : ∀ (d : Coupler) (p : MessageProcessor), d.processors j = some p → p.inData.length ≤ n →
      ∃ c', d.read j n = .ok (c', some p.inData) := by
    intro d p hd hl
    simp only [Coupler.read, hd, read_ok, Res.bind_ok, List.take_of_length_le hl]
    exact ⟨_, rfl⟩
  obtain ⟨c', hc'⟩ := this _ _ b1.sim.sim.proc (by rw [hin]; exact hn)
  exact ⟨c', by rw [hc', hin]⟩

/-- The failing cycle, a lost image and a crash; then a byte is written. -/
example : ∃ evs : List UPEv, evs = exBefore.map .ev ++
    [.failing exPi, .ev (.start exPi), .lost, .crash, .ev (.write [9#8])] ∧
    (exPlant.urun true exCfg 3 .EightBytes 0x0010#16 0x8010#16 evs).written =
      [1#8, 2#8, 3#8, 4#8, 5#8, 6#8, 7#8, 9#8] := by
  refine ⟨_, rfl, ?_⟩
  rw [plant_urun_ev, Plant.urun, List.foldl_cons, exFailing]
  simp only [List.foldl, Plant.ustep, exCfg_new]
  decide +kernel

theorem exInput_ready (w : Word) (hw : w = 0#16 ∨ w = 0x0020#16 ∨ w = 0x0040#16) :
    InputsReady exCfg [0#16, w, 0#16, 0#16, 0#16] := by
  intro j t par o i h hn
  rcases exCfg_at h with ⟨rfl, rfl, rfl, rfl, rfl⟩ | ⟨rfl, rfl, rfl, rfl, rfl⟩ |
    ⟨rfl, rfl, rfl, rfl, rfl⟩ | ⟨rfl, rfl, rfl, rfl, rfl⟩
  · exact absurd rfl hn
  · exact absurd rfl hn
  · refine ⟨by unfold HasRegisters; simp; decide, fun h => by cases h⟩
  · refine ⟨by unfold HasRegisters; simp; decide, fun _ b hb => ?_⟩
    rcases hw with rfl | rfl | rfl
    · rw [show byteAt [0#16, 0#16, 0#16, 0#16, 0#16] _ = some 0#8 by decide] at hb
      cases hb; decide
    · rw [show byteAt [0#16, 0x0020#16, 0#16, 0#16, 0#16] _ = some 0#8 by decide] at hb
      cases hb; decide
    · rw [show byteAt [0#16, 0x0040#16, 0#16, 0#16, 0#16] _ = some 0#8 by decide] at hb
      cases hb; decide

/-- After two cycles seven bytes are written; three rounds deliver them. -/
example : ∃ pis, (exPlant.run true 3 .EightBytes 0x0010#16 0x8010#16 (exBefore.take 5)).GoodInputs
      true exCfg 3 .EightBytes 0x0010#16 0x8010#16 pis ∧ pis.length = 3 ∧
    OutputsReady exCfg (exPlant.run true 3 .EightBytes 0x0010#16 0x8010#16 (exBefore.take 5)).out ∧
    ((exPlant.run true 3 .EightBytes 0x0010#16 0x8010#16 (exBefore.take 5)).rounds true 3 .EightBytes
      0x0010#16 0x8010#16 pis).received = [1#8, 2#8, 3#8, 4#8, 5#8, 6#8, 7#8] := by
  refine ⟨[[0#16, 0#16, 0#16, 0#16, 0#16], [0#16, 0x0020#16, 0#16, 0#16, 0#16],
    [0#16, 0x0040#16, 0#16, 0#16, 0#16]], ⟨exInput_ready _ (by simp), ⟨_, rfl, by decide +kernel⟩,
    exInput_ready _ (by simp), ⟨_, rfl, by decide +kernel⟩, exInput_ready _ (by simp),
    ⟨_, rfl, by decide +kernel⟩, trivial⟩, rfl, ?_, by decide +kernel⟩
  rw [show (exPlant.run true 3 .EightBytes 0x0010#16 0x8010#16 (exBefore.take 5)).out = exImage by
    decide +kernel]
  exact exImage_ready

/-- Two segments after two cycles. -/
theorem exSegments_good : ∃ segs, (exPlant.run true 3 .EightBytes 0x0010#16 0x8010#16
      (exBefore.take 4)).GoodSegments true exCfg 3 .EightBytes 0x0010#16 0x8010#16 segs ∧
    (exPlant.run true 3 .EightBytes 0x0010#16 0x8010#16 (exBefore.take 4)).Acknowledged .EightBytes
      0x8010#16 ∧
    segs.map (·.1) = [[0x41#8], [0x42#8, 0x43#8]] := by
  refine ⟨[([0x41#8], [0#16, 0x0109#16, 0x0041#16, 0#16, 0#16]),
    ([0x42#8, 0x43#8], [0#16, 0x0211#16, 0x4342#16, 0#16, 0#16])],
    ⟨?_, ⟨_, rfl, by decide +kernel⟩, ?_, ⟨_, rfl, by decide +kernel⟩, trivial⟩,
    ⟨_, rfl, by decide +kernel⟩, rfl⟩
  · intro j t par o i h hn
    rcases exCfg_at h with ⟨rfl, rfl, rfl, rfl, rfl⟩ | ⟨rfl, rfl, rfl, rfl, rfl⟩ |
      ⟨rfl, rfl, rfl, rfl, rfl⟩ | ⟨rfl, rfl, rfl, rfl, rfl⟩
    · exact absurd rfl hn
    · exact absurd rfl hn
    · refine ⟨by unfold HasRegisters; decide, fun h => by cases h⟩
    · refine ⟨by unfold HasRegisters; decide, fun _ b hb => ?_⟩
      rw [show byteAt [0#16, 0x0109#16, 0x0041#16, 0#16, 0#16] _ = some 1#8 by decide] at hb
      cases hb; decide
  · intro j t par o i h hn
    rcases exCfg_at h with ⟨rfl, rfl, rfl, rfl, rfl⟩ | ⟨rfl, rfl, rfl, rfl, rfl⟩ |
      ⟨rfl, rfl, rfl, rfl, rfl⟩ | ⟨rfl, rfl, rfl, rfl, rfl⟩
    · exact absurd rfl hn
    · exact absurd rfl hn
    · refine ⟨by unfold HasRegisters; decide, fun h => by cases h⟩
    · refine ⟨by unfold HasRegisters; decide, fun _ b hb => ?_⟩
      rw [show byteAt [0#16, 0x0211#16, 0x4342#16, 0#16, 0#16] _ = some 2#8 by decide] at hb
      cases hb; decide

theorem exBefore_start : exPlant.urun true exCfg 3 .EightBytes 0x0010#16 0x8010#16
      ((exBefore.take 4).map .ev) = exPlant.run true 3 .EightBytes 0x0010#16 0x8010#16 (exBefore.take 4) := by
  rw [← List.append_nil ((exBefore.take 4).map _), plant_urun_ev]
  rfl

/-- The hypotheses of `C91_received` are met: the segments can be read. -/
example : ∃ segs c', segs.map (·.1) = [[0x41#8], [0x42#8, 0x43#8]] ∧
    ((exPlant.urun true exCfg 3 .EightBytes 0x0010#16 0x8010#16 ((exBefore.take 4).map .ev)).receives true 3
      .EightBytes 0x0010#16 0x8010#16 segs).c.read 3 10 = .ok (c', some [0x41#8, 0x42#8, 0x43#8]) := by
  obtain ⟨segs, h1, h2, h3⟩ := exSegments_good
  have hb : (exPlant.run true 3 .EightBytes 0x0010#16 0x8010#16 (exBefore.take 4)).buffered 3 = [] := by
    decide +kernel
  have := C91_received true exCfg 3 .EightBytes 0x0010#16 0x8010#16 exPlant exPlant_initial
    ((exBefore.take 4).map .ev) (by intro a v h; simp [exBefore] at h)
  rw [exBefore_start] at this ⊢
  obtain ⟨c', h⟩ := this (by decide +kernel) (by
    rw [show (exPlant.run true 3 .EightBytes 0x0010#16 0x8010#16 (exBefore.take 4)).out = exImage by
      decide +kernel]
    exact exImage_ready) (by decide +kernel) h2 segs h1 10 (by rw [hb, h3]; decide)
  exact ⟨segs, c', h3, by rw [h, hb, h3]; rfl⟩

end Ur20
