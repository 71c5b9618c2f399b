import Verif.Props.Late
import Verif.Props.SerialCoupler
import Verif.Props.Isolation
import Verif.Spec.LatePlant

/-!
# C129 for a whole coupler
-/

namespace Ur20

open Com Spec Coupler

namespace Spec.LatePlant

/-- The coupler seen from the serial module. -/
structure LSim (oc : Bool) (cfg : CouplerConfig) (j : Nat) (len : ProcessDataLength) (oi oo : Word) (s : LatePlant) (t : Late) : Prop where
  reach : ReachableFrom oc cfg s.c
  serial : SerialAt s.c j len oi oo
  disjoint : BytesKept (infos s.c) j
  proc : s.c.processors j = some t.p
  write : s.c.write ⟨j, 0⟩ = none
  kept : outFrame len oo s.kept = some t.kept
  inp : inFrame len oi s.inp = some t.inp
  ins : s.ins.map (inFrame len oi) = t.ins.map some
  outs : s.outs.map (outFrame len oo) = t.outs.map some
  out : outFrame len oo s.out = some t.out
  ack : t.ack = s.ack
  rxCnt : t.rxCnt = s.rxCnt
  avail : t.avail = s.avail
  cycles : t.cycles = s.cycles
  written : t.written = s.written
  received : t.received = s.received
  shown : t.shown = s.shown
  early : t.early = s.early
  delivered : t.delivered = s.delivered

theorem map_erased {α β : Type} (f : α → β) (l : List α) (n : Nat) :
    (l.eraseIdx n).map f = (l.map f).eraseIdx n := by
  induction l generalizing n with
  | nil => rfl
  | cons x l ih => cases n with
    | zero => rfl
    | succ n => simp [ih]

/-- A call that does not concern the serial module does not change what belongs to it. -/
theorem elsewhere_keeps (oc : Bool) (c : Coupler) {j : Nat} {op : COp} (hop : op.Elsewhere j) :
    (op.apply oc c).processors j = c.processors j ∧
      (op.apply oc c).write ⟨j, 0⟩ = c.write ⟨j, 0⟩ := by
  cases op with
  | setOutput a v =>
    have hn : a.module ≠ j := hop
    simp only [COp.apply, setOutput]
    split
    · exact ⟨rfl, rfl⟩
    · simp only [Coupler.insert]
      refine ⟨trivial, if_neg ?_⟩
      rintro rfl
      exact hn rfl
  | next _ _ => exact hop.elim
  | read n k =>
    have hn : n ≠ j := hop
    simp only [COp.apply, Coupler.read]
    cases hpn : c.processors n with
    | none => exact ⟨rfl, rfl⟩
    | some q =>
      simp only [read_ok, Res.bind_ok, setProcessor]
      exact ⟨if_neg (Ne.symm hn), trivial⟩
  | write n b =>
    have hn : n ≠ j := hop
    simp only [COp.apply, writeBytes]
    cases hpn : c.processors n with
    | none => exact ⟨rfl, rfl⟩
    | some q =>
      simp only [setProcessor]
      exact ⟨if_neg (Ne.symm hn), trivial⟩

theorem LSim.step {oc : Bool} {cfg : CouplerConfig} {j : Nat} {len : ProcessDataLength} {oi oo : Word} {s : LatePlant}
    {t : Late} (h : LSim oc cfg j len oi oo s t) (e : LatePlantEv)
    (he : ∀ pi po, e = .failing pi po → ¬ Decodable cfg pi po ∧ (oc = false → po.length ≤ 0xF800)) :
    ∃ evs, LSim oc cfg j len oi oo (s.step oc j len oi oo e) (t.run evs) := by
  obtain ⟨c, kept, inp, ins, outs, out, ack, rxc, av, cy, wr, rec, sh, er, dlv⟩ := s
  obtain ⟨tp, tkept, tinp, tins, touts, tout, tack, trxc, tav, tcy, twr, trec, tsh, ter, tdlv⟩ := t
  obtain ⟨hreach, hser, hdis, hproc, hw, hkept, hinp, hins, houts, hout, hack, hrx, hav, hcy, hwr, hrec,
    hsh, her, hdlv⟩ := h
  have hinv := inv_of_reachable hreach
  simp only at hreach hinv hser hdis hproc hw hkept hinp hins houts hout hack hrx hav hcy hwr hrec hsh her hdlv
  subst hack hrx hav hcy hwr hrec hsh her hdlv
  have stay : LSim oc cfg j len oi oo
      ⟨c, kept, inp, ins, outs, out, tack, trxc, tav, tcy, twr, trec, tsh, ter, tdlv⟩
      (Late.run ⟨tp, tkept, tinp, tins, touts, tout, tack, trxc, tav, tcy, twr, trec, tsh, ter, tdlv⟩
        []) :=
    ⟨hreach, hser, hdis, hproc, hw, hkept, hinp, hins, houts, hout, rfl, rfl, rfl, rfl, rfl, rfl, rfl, rfl,
      rfl⟩
  cases e with
  | write buf =>
    have hst := apply_static oc c (.write j buf)
    have hI := reachable_run hreach [.write j buf]
    simp only [runC, List.foldl, COp.apply] at hst hI
    obtain ⟨h1, h2⟩ := Plant.Sim.static hst.1 hst.2 hser hdis
    refine ⟨[.write buf], ⟨hI, h1, h2, ?_, ?_, hkept, hinp, hins, houts, hout, rfl, rfl, rfl, rfl, rfl,
      rfl, rfl, rfl, rfl⟩⟩
    · simp [LatePlant.step, writeBytes, hproc, setProcessor, Late.run, Late.step]
    · simpa [LatePlant.step, writeBytes, hproc, setProcessor] using hw
  | read n =>
    have hst := apply_static oc c (.read j n)
    have hI := reachable_run hreach [.read j n]
    simp only [runC, List.foldl, COp.apply, Coupler.read, hproc, read_ok, Res.bind_ok] at hst hI
    obtain ⟨h1, h2⟩ := Plant.Sim.static hst.1 hst.2 hser hdis
    refine ⟨[.read n], ?_⟩
    simp only [LatePlant.step, Coupler.read, hproc, read_ok, Res.bind_ok, Late.run, List.foldl,
      Late.step]
    refine ⟨hI, h1, h2, ?_, ?_, hkept, hinp, hins, houts, hout, rfl, rfl, rfl, rfl, rfl, rfl, rfl, rfl,
      rfl⟩
    · simp [setProcessor]
    · simpa [setProcessor] using hw
  | other op =>
    refine ⟨[], ?_⟩
    simp only [LatePlant.step]
    by_cases hop : op.Elsewhere j
    · rw [if_pos hop]
      have hst := apply_static oc c op
      obtain ⟨h1, h2⟩ := Plant.Sim.static hst.1 hst.2 hser hdis
      obtain ⟨k1, k2⟩ := elsewhere_keeps oc c hop
      exact ⟨reachable_run hreach [op], h1, h2, k1.trans hproc, k2.trans hw, hkept, hinp, hins, houts, hout, rfl,
        rfl, rfl, rfl, rfl, rfl, rfl, rfl, rfl⟩
    · rw [if_neg hop]
      exact stay
  | sample pi =>
    simp only [LatePlant.step]
    split
    · rename_i f hf
      split
      · rename_i hpr
        obtain ⟨q1, q2, q3, q4⟩ := hpr
        simp only at q1 q2 q3 q4
        refine ⟨[.sample f.bufferNearlyFull f.ready], hreach, hser, hdis, hproc, hw, hkept, hinp, ?_,
          houts, hout, rfl, rfl, rfl, rfl, rfl, rfl, rfl, rfl, rfl⟩
        simp only [Late.run, List.foldl, Late.step, List.map_append, hins, List.map_cons,
          List.map_nil, hf]
        congr 3
        obtain ⟨x1, x2, x3, x4, x5, x6⟩ := f
        simp only at q1 q2 q3 q4
        subst q1 q2 q3 q4
        rfl
      · exact ⟨[], stay⟩
    · exact ⟨[], stay⟩
  | arrive =>
    refine ⟨[.arrive], ?_⟩
    simp only [LatePlant.step, Late.run, List.foldl, Late.step]
    cases ins with
    | nil =>
      cases tins with
      | nil => exact stay
      | cons x xs => simp at hins
    | cons i is =>
      cases tins with
      | nil => simp at hins
      | cons x xs =>
        simp only [List.map_cons, List.cons.injEq] at hins
        exact ⟨hreach, hser, hdis, hproc, hw, hkept, hins.1, hins.2, houts, hout, rfl, rfl, rfl, rfl, rfl,
          rfl, rfl, rfl, rfl⟩
  | loseIn n =>
    refine ⟨[.loseIn n], hreach, hser, hdis, hproc, hw, hkept, hinp, ?_, houts, hout, rfl, rfl, rfl, rfl,
      rfl, rfl, rfl, rfl, rfl⟩
    simp only [LatePlant.step, Late.run, List.foldl, Late.step, map_erased, hins]
  | cycle =>
    simp only [LatePlant.step]
    split
    · rename_i c' img hn
      obtain ⟨p, i, o, lt, g1, g2, g3, -, -, -, g7, g8, g9⟩ := serial_cycle hinv hser hn
      rw [hinp] at g2
      cases g2
      rw [hproc] at g1
      cases g1
      rw [hkept] at g3
      cases g3
      rw [hw] at g7 g9
      have g9 := g9 hdis
      simp only [feed] at g7 g9
      have hst := next_static oc c inp kept
      rw [hn] at hst
      obtain ⟨s1, s2⟩ := Plant.Sim.static hst.1 hst.2 hser hdis
      have hI : ReachableFrom oc cfg c' := by
        have := reachable_run hreach [.next inp kept]
        simpa [runC, COp.apply, hn] using this
      refine ⟨[.cycle], hI, s1, s2, g7, g8, g9, hinp, hins, ?_, hout, rfl, rfl, rfl, rfl, rfl, rfl, rfl,
        rfl, rfl⟩
      simp only [Late.run, List.foldl, Late.step, List.map_append, houts, List.map_cons, List.map_nil,
        g9]
    · exact ⟨[], stay⟩
  | failing pi po =>
    obtain ⟨hu, hsz⟩ := he pi po rfl
    have ha := undecoded_agree hreach hsz hu j
    simp only [LatePlant.step]
    split
    · rename_i c' er hn
      have hst := next_static oc c pi po
      have hI := reachable_run hreach [.next pi po]
      simp only [runC, List.foldl, COp.apply] at hI
      rw [hn] at hst ha hI
      obtain ⟨s1, s2⟩ := Plant.Sim.static hst.1 hst.2 hser hdis
      exact ⟨[], hI, s1, s2, ha.2.trans hproc, (ha.1 0).trans hw, hkept, hinp, hins, houts, hout, rfl,
        rfl, rfl, rfl, rfl, rfl, rfl, rfl, rfl⟩
    · exact ⟨[], stay⟩
  | again =>
    refine ⟨[.again], hreach, hser, hdis, hproc, hw, hkept, hinp, hins, ?_, hout, rfl, rfl, rfl, rfl, rfl,
      rfl, rfl, rfl, rfl⟩
    simp only [LatePlant.step, Late.run, List.foldl, Late.step, List.map_append, houts, List.map_cons,
      List.map_nil, hkept]
  | deliver =>
    refine ⟨[.deliver], ?_⟩
    simp only [LatePlant.step, Late.run, List.foldl, Late.step]
    cases outs with
    | nil =>
      cases touts with
      | nil => exact stay
      | cons x xs => simp at houts
    | cons i is =>
      cases touts with
      | nil => simp at houts
      | cons x xs =>
        simp only [List.map_cons, List.cons.injEq] at houts
        exact ⟨hreach, hser, hdis, hproc, hw, hkept, hinp, hins, houts.2, houts.1, rfl, rfl, rfl, rfl, rfl,
          rfl, rfl, rfl, rfl⟩
  | loseOut n =>
    refine ⟨[.loseOut n], hreach, hser, hdis, hproc, hw, hkept, hinp, hins, ?_, hout, rfl, rfl, rfl, rfl,
      rfl, rfl, rfl, rfl, rfl⟩
    simp only [LatePlant.step, Late.run, List.foldl, Late.step, map_erased, houts]
  | take =>
    refine ⟨[.take], ?_⟩
    simp only [LatePlant.step, hout, Late.run, List.foldl, Late.step]
    split
    · exact ⟨hreach, hser, hdis, hproc, hw, hkept, hinp, hins, houts, hout, rfl, rfl, rfl, rfl, rfl, rfl,
        rfl, rfl, rfl⟩
    · exact stay
  | post seg =>
    refine ⟨[.post seg], ?_⟩
    simp only [LatePlant.step, hout, Late.run, List.foldl, Late.step]
    split
    · exact ⟨hreach, hser, hdis, hproc, hw, hkept, hinp, hins, houts, hout, rfl, rfl, rfl, rfl, rfl, rfl,
        rfl, rfl, rfl⟩
    · exact stay
  | hide =>
    refine ⟨[.hide], ?_⟩
    simp only [LatePlant.step, hout, Late.run, List.foldl, Late.step]
    split
    · exact ⟨hreach, hser, hdis, hproc, hw, hkept, hinp, hins, houts, hout, rfl, rfl, rfl, rfl, rfl, rfl,
        rfl, rfl, rfl⟩
    · exact stay

theorem LSim.run {oc : Bool} {cfg : CouplerConfig} {j : Nat} {len : ProcessDataLength} {oi oo : Word} {s : LatePlant}
    {t : Late} (h : LSim oc cfg j len oi oo s t) (pevs : List LatePlantEv)
    (hu : OnlyUndecodable oc cfg pevs) :
    ∃ evs, LSim oc cfg j len oi oo (s.run oc j len oi oo pevs) (t.run evs) := by
  induction pevs generalizing s t with
  | nil => exact ⟨[], h⟩
  | cons e pevs ih =>
    obtain ⟨e1, h1⟩ := h.step e fun pi po he => hu pi po (he ▸ List.mem_cons_self)
    obtain ⟨e2, h2⟩ := ih h1 fun pi po he => hu pi po (List.mem_cons_of_mem _ he)
    exact ⟨e1 ++ e2, by rw [Late.run, List.foldl_append]; exact h2⟩

theorem Initial.lsim {oc : Bool} {cfg : CouplerConfig} {j : Nat} {len : ProcessDataLength} {oi oo : Word}
    {s : LatePlant} (h : s.Initial cfg j len oi oo) :
    ∃ t : Late, t.Initial len ∧ LSim oc cfg j len oi oo s t := by
  obtain ⟨f, hf1, hf2⟩ := h.out
  obtain ⟨i, hi1, q1, q2, q3, q4⟩ := h.inp
  have hp : s.c.processors j = some (MessageProcessor.new len) := by
    obtain ⟨cm, hm, rfl, -⟩ := h.serial
    obtain ⟨-, -, ms, -, hms⟩ := new_ok h.c
    rw [hms] at hm ⊢
    simp only [initial]
    have : ms[j]? = some (Module.com cm) := hm.1
    rw [this]
    rfl
  refine ⟨⟨MessageProcessor.new len, f, i, [], [], f, s.ack, s.rxCnt, s.avail, s.cycles, s.written,
    s.received, s.shown, s.early, s.delivered⟩, ⟨rfl, rfl, hf2, ⟨i.bufferNearlyFull, i.ready, ?_⟩, rfl,
    rfl, h.ack, h.rxCnt, h.shown, h.logs⟩,
    ⟨⟨s.c, [], h.c, rfl⟩, h.serial, h.disjoint, hp, ((C13_success cfg).2 s.c h.c).2.2.2.2.2 _,
      by rw [h.kept]; exact hf1, hi1, by rw [h.ins]; rfl, by rw [h.outs]; rfl, hf1,
      rfl, rfl, rfl, rfl, rfl, rfl, rfl, rfl, rfl⟩⟩
  obtain ⟨x1, x2, x3, x4, x5, x6⟩ := i
  simp only at q1 q2 q3 q4
  subst q1 q2 q3 q4
  rfl

end Spec.LatePlant

/-- C129 for a whole coupler, sending: the bytes the device has taken over, followed by those of the
last returned image it has not taken over yet and those still queued, are the bytes written to the
module. -/
theorem C129_coupler_sent (oc : Bool) (cfg : CouplerConfig) (j : Nat) (len : ProcessDataLength)
    (oi oo : Word) (s : LatePlant) (h : s.Initial cfg j len oi oo) (evs : List LatePlantEv)
    (hu : LatePlant.OnlyUndecodable oc cfg evs) :
    let r := s.run oc j len oi oo evs
    r.received ++ r.inFlight len oo ++ r.queued j = r.written := by
  obtain ⟨t, ht, hsim⟩ := h.lsim (oc := oc)
  obtain ⟨evs', hs⟩ := hsim.run evs hu
  have hb := C129_sent len t ht evs'
  intro r
  rw [hs.received, hs.written] at hb
  rw [← hb]
  simp only [LatePlant.inFlight, LatePlant.queued, Late.inFlight, r, hs.proc, hs.kept, hs.ack]

/-- C129 for a whole coupler, receiving: after the two initialisation cycles the application gets each
segment of the device exactly once and in order. Only segments presented before the end of the
initialisation can be missing, and the newest one, which it has not seen yet. -/
theorem C129_coupler_received (oc : Bool) (cfg : CouplerConfig) (j : Nat) (len : ProcessDataLength)
    (oi oo : Word) (s : LatePlant) (h : s.Initial cfg j len oi oo) (evs : List LatePlantEv)
    (hu : LatePlant.OnlyUndecodable oc cfg evs)
    (hc : 2 ≤ (s.run oc j len oi oo evs).cycles) :
    let r := s.run oc j len oi oo evs
    ∃ skipped got ahead, r.shown = skipped ++ got ++ ahead ∧ skipped.length ≤ r.early ∧
      ahead.length ≤ 1 ∧ r.delivered ++ r.buffered j = got.flatten := by
  obtain ⟨t, ht, hsim⟩ := h.lsim (oc := oc)
  obtain ⟨evs', hs⟩ := hsim.run evs hu
  rw [← hs.cycles] at hc
  obtain ⟨a, b, d, h1, h2, h3, h4⟩ := C129_received len t ht evs' hc
  intro r
  refine ⟨a, b, d, by rw [← h1, hs.shown], by rw [← hs.early]; exact h2, h3, ?_⟩
  rw [← h4, hs.delivered]
  simp only [LatePlant.buffered, r, hs.proc]

/-- C129 for a whole coupler, receiving: before the end of the initialisation nothing is received. -/
theorem C129_coupler_early (oc : Bool) (cfg : CouplerConfig) (j : Nat) (len : ProcessDataLength)
    (oi oo : Word) (s : LatePlant) (h : s.Initial cfg j len oi oo) (evs : List LatePlantEv)
    (hu : LatePlant.OnlyUndecodable oc cfg evs) (hc : (s.run oc j len oi oo evs).cycles < 2) :
    let r := s.run oc j len oi oo evs
    r.delivered ++ r.buffered j = [] := by
  obtain ⟨t, ht, hsim⟩ := h.lsim (oc := oc)
  obtain ⟨evs', hs⟩ := hsim.run evs hu
  rw [← hs.cycles] at hc
  have h1 := C129_early len t ht evs' hc
  intro r
  rw [← h1, hs.delivered]
  simp only [LatePlant.buffered, r, hs.proc]

open Spec.LatePlant in
/-- A look of the device at its image, seen from the serial module. -/
theorem LatePlant_take {oc : Bool} {cfg : CouplerConfig} {j : Nat} {len : ProcessDataLength} {oi oo : Word}
    {s : LatePlant} {t : Late} (h : LSim oc cfg j len oi oo s t) :
    LSim oc cfg j len oi oo (s.step oc j len oi oo .take) (t.step .take) := by
  simp only [LatePlant.step, Late.step, h.out, h.ack]
  split
  · exact ⟨h.reach, h.serial, h.disjoint, h.proc, h.write, h.kept, h.inp, h.ins, h.outs, h.out, rfl,
      h.rxCnt, h.avail, h.cycles, h.written, by simp only [h.received], h.shown, h.early, h.delivered⟩
  · exact h

open Spec.LatePlant in
/-- A round without losses and delays, seen from the serial module. -/
theorem LatePlant_round {oc : Bool} {cfg : CouplerConfig} {j : Nat} {len : ProcessDataLength} {oi oo : Word}
    {s : LatePlant} {t : Late} (h : LSim oc cfg j len oi oo s t) (hi : s.ins = []) (ho : s.outs = [])
    {pi : List Word} (hf : ∃ f, inFrame len oi pi = some f ∧ s.Presents f)
    (hn : ∃ img, (s.c.next oc pi s.kept).2 = .ok img) :
    ∃ fl, LSim oc cfg j len oi oo (s.rounds oc j len oi oo [pi]) (t.run (Late.round fl)) ∧
      (s.rounds oc j len oi oo [pi]).ins = [] ∧ (s.rounds oc j len oi oo [pi]).outs = [] := by
  obtain ⟨f, hf, hpr⟩ := hf
  obtain ⟨img, hn⟩ := hn
  have hti : t.ins = [] := by
    have := h.ins
    rw [hi] at this
    exact List.map_eq_nil_iff.1 this.symm
  have hto : t.outs = [] := by
    have := h.outs
    rw [ho] at this
    exact List.map_eq_nil_iff.1 this.symm
  have hn' : s.c.next oc pi s.kept = ((s.c.next oc pi s.kept).1, .ok img) := by rw [← hn]
  generalize (s.c.next oc pi s.kept).1 = c' at hn'
  obtain ⟨p, i, o, lt, g1, g2, g3, -, -, -, g7, g8, g9⟩ := serial_cycle (inv_of_reachable h.reach) h.serial hn'
  rw [hf] at g2
  cases g2
  rw [h.proc] at g1
  cases g1
  rw [h.kept] at g3
  cases g3
  rw [h.write] at g7 g9
  have g9 := g9 h.disjoint
  simp only [feed] at g7 g9
  have hst := next_static oc s.c pi s.kept
  rw [hn'] at hst
  obtain ⟨s1, s2⟩ := Plant.Sim.static hst.1 hst.2 h.serial h.disjoint
  have hI : ReachableFrom oc cfg c' := by
    have := reachable_run h.reach [.next pi s.kept]
    simpa [runC, COp.apply, hn'] using this
  have hinp : t.input f.bufferNearlyFull f.ready = f := by
    obtain ⟨q1, q2, q3, q4⟩ := hpr
    obtain ⟨x1, x2, x3, x4, x5, x6⟩ := f
    simp only at q1 q2 q3 q4
    simp only [Late.input, h.avail, h.rxCnt, h.ack, h.shown, q1, q2, q3, q4]
  have hs : s.rounds oc j len oi oo [pi] = LatePlant.step oc j len oi oo { s with
      c := c', kept := img, inp := pi, out := img, cycles := s.cycles + 1
      early := if s.cycles < 2 then s.shown.length else s.early } .take := by
    simp only [LatePlant.rounds, LatePlant.run, List.flatMap_cons, List.flatMap_nil, List.append_nil,
      List.foldl_cons, List.foldl_nil]
    congr 1
    simp only [LatePlant.step, hf, if_pos hpr, hi, List.nil_append, hn', ho]
  have ht : t.run (Late.round (f.bufferNearlyFull, f.ready)) = Late.step { t with
      p := (t.p.next f t.kept).1, kept := (t.p.next f t.kept).2, inp := f
      out := (t.p.next f t.kept).2, cycles := t.cycles + 1
      early := if t.cycles < 2 then t.shown.length else t.early } .take := by
    simp only [Late.run, Late.round, List.foldl_cons, List.foldl_nil]
    congr 1
    simp only [Late.step, hti, hto, List.nil_append, hinp]
  refine ⟨(f.bufferNearlyFull, f.ready), ?_, ?_, ?_⟩
  · rw [hs, ht]
    exact LatePlant_take ⟨hI, s1, s2, g7, g8, g9, hf, by rw [hi, hti]; rfl, by rw [ho, hto]; rfl, g9,
      h.ack, h.rxCnt, h.avail, by simp only [h.cycles], h.written, h.received, h.shown,
      by simp only [h.cycles, h.shown, h.early], h.delivered⟩
  · rw [hs]
    simp only [LatePlant.step]
    repeat' split
    all_goals exact hi
  · rw [hs]
    simp only [LatePlant.step]
    repeat' split
    all_goals exact ho

open Spec.LatePlant in
/-- Rounds without losses and delays, seen from the serial module. -/
theorem LatePlant_rounds {oc : Bool} {cfg : CouplerConfig} {j : Nat} {len : ProcessDataLength} {oi oo : Word}
    {pis : List (List Word)} {s : LatePlant} {t : Late} (h : LSim oc cfg j len oi oo s t)
    (hi : s.ins = []) (ho : s.outs = []) (hg : LatePlant.GoodRounds oc j len oi oo s pis) :
    ∃ flags, flags.length = pis.length ∧
      LSim oc cfg j len oi oo (s.rounds oc j len oi oo pis) (t.rounds flags) := by
  induction pis generalizing s t with
  | nil => exact ⟨[], rfl, h⟩
  | cons pi pis ih =>
    obtain ⟨hf, hn, hg⟩ := hg
    obtain ⟨fl, h1, h2, h3⟩ := LatePlant_round h hi ho hf hn
    obtain ⟨flags, h4, h5⟩ := ih h1 h2 h3 hg
    refine ⟨fl :: flags, by simp [h4], ?_⟩
    rw [lateRounds_cons]
    simpa only [LatePlant.rounds, LatePlant.run, List.flatMap_cons, List.flatMap_nil,
      List.foldl_append, List.append_nil] using h5

/-- C129 for a whole coupler, progress: whatever was late or lost before, when nothing is on the way any
more then two rounds for the initialisation, one for the segment of the last returned image and one for
each queued segment deliver everything that was written. -/
theorem C129_coupler_progress (oc : Bool) (cfg : CouplerConfig) (j : Nat) (len : ProcessDataLength)
    (oi oo : Word) (s : LatePlant) (h : s.Initial cfg j len oi oo) (evs : List LatePlantEv)
    (hu : LatePlant.OnlyUndecodable oc cfg evs)
    (hi : (s.run oc j len oi oo evs).ins = []) (ho : (s.run oc j len oi oo evs).outs = [])
    (pis : List (List Word))
    (hg : LatePlant.GoodRounds oc j len oi oo (s.run oc j len oi oo evs) pis)
    (hk : ∀ p, (s.run oc j len oi oo evs).c.processors j = some p → 3 + p.outData.length ≤ pis.length) :
    ((s.run oc j len oi oo evs).rounds oc j len oi oo pis).received =
      (s.run oc j len oi oo evs).written ∧
    ((s.run oc j len oi oo evs).rounds oc j len oi oo pis).queued j = [] := by
  obtain ⟨t, ht, hsim⟩ := h.lsim (oc := oc)
  obtain ⟨evs', hs⟩ := hsim.run evs hu
  obtain ⟨flags, hl, hx⟩ := LatePlant_rounds hs hi ho hg
  have hti : (t.run evs').ins = [] := by
    have := hs.ins
    rw [hi] at this
    exact List.map_eq_nil_iff.1 this.symm
  have hto : (t.run evs').outs = [] := by
    have := hs.outs
    rw [ho] at this
    exact List.map_eq_nil_iff.1 this.symm
  obtain ⟨p1, p2⟩ := C129_progress len t ht evs' hti hto flags (by rw [hl]; exact hk _ hs.proc)
  refine ⟨by rw [← hx.received, p1, hs.written], ?_⟩
  simp only [LatePlant.queued, hx.proc, p2, List.flatten_nil]

/-- C129 for a whole coupler, receiving: whatever was late or lost before, when nothing is on the way
any more then one round is enough for the application to have everything the device has presented since
the end of the initialisation. -/
theorem C129_coupler_read (oc : Bool) (cfg : CouplerConfig) (j : Nat) (len : ProcessDataLength)
    (oi oo : Word) (s : LatePlant) (h : s.Initial cfg j len oi oo) (evs : List LatePlantEv)
    (hu : LatePlant.OnlyUndecodable oc cfg evs) (hc : 2 ≤ (s.run oc j len oi oo evs).cycles)
    (hi : (s.run oc j len oi oo evs).ins = []) (ho : (s.run oc j len oi oo evs).outs = [])
    (pi : List Word) (hg : LatePlant.GoodRounds oc j len oi oo (s.run oc j len oi oo evs) [pi]) :
    let r := (s.run oc j len oi oo evs).rounds oc j len oi oo [pi]
    ∃ skipped got, r.shown = skipped ++ got ∧ skipped.length ≤ r.early ∧
      r.delivered ++ r.buffered j = got.flatten := by
  intro r
  obtain ⟨t, ht, hsim⟩ := h.lsim (oc := oc)
  obtain ⟨evs', hs⟩ := hsim.run evs hu
  obtain ⟨fl, hx, -, -⟩ := LatePlant_round hs hi ho hg.1 hg.2.1
  have hti : (t.run evs').ins = [] := by
    have := hs.ins
    rw [hi] at this
    exact List.map_eq_nil_iff.1 this.symm
  rw [← hs.cycles] at hc
  obtain ⟨a, b, h1, h2, h3⟩ := C129_read len t ht evs' hc hti fl.1 fl.2
  have hrest : ∀ x : Late, (x.run [.deliver, .take]).shown = x.shown ∧
      (x.run [.deliver, .take]).early = x.early ∧ (x.run [.deliver, .take]).delivered = x.delivered ∧
      (x.run [.deliver, .take]).p = x.p := by
    intro x
    simp only [Late.run, List.foldl_cons, List.foldl_nil, Late.step]
    repeat' split
    all_goals exact ⟨rfl, rfl, rfl, rfl⟩
  obtain ⟨r1, r2, r3, r4⟩ := hrest ((t.run evs').run [.sample fl.1 fl.2, .arrive, .cycle])
  have hround : ((t.run evs').run [.sample fl.1 fl.2, .arrive, .cycle]).run [.deliver, .take] =
      (t.run evs').run (Late.round fl) := rfl
  rw [hround] at r1 r2 r3 r4
  refine ⟨a, b, ?_, ?_, ?_⟩
  · rw [← h1, ← r1]
    exact hx.shown.symm
  · rw [← hx.early, r2]
    exact h2
  · rw [← h3, ← r3, ← r4, hx.delivered]
    simp only [LatePlant.buffered, r, hx.proc]

/-- The plant of `exPlant` with an application that keeps the images. -/
def exLatePlant : LatePlant :=
  { c := initial exCfg exModules, kept := exPo, inp := exPi, ins := [], outs := [], out := exPo
    ack := 0, rxCnt := 0, avail := false, cycles := 0, written := [], received := [], shown := [[]]
    early := 0, delivered := [] }

theorem exLatePlant_initial : exLatePlant.Initial exCfg 3 .EightBytes 0x0010#16 0x8010#16 where
  c := exCfg_new
  serial := exCfg_serial
  disjoint := exPlant_initial.disjoint
  kept := rfl
  out := exPlant_initial.out
  inp := ⟨_, rfl, by decide +kernel⟩
  ins := rfl
  outs := rfl
  ack := by decide
  rxCnt := by decide
  shown := rfl
  logs := by decide

/-- Nine bytes are written. The image with the first segment is lost, cycles go on with the old image
of the inputs, and the segment arrives with a later image. -/
example :
    let t := exLatePlant.run true 3 .EightBytes 0x0010#16 0x8010#16 [.write [1#8, 2#8, 3#8, 4#8, 5#8,
      6#8, 7#8, 8#8, 9#8], .cycle, .cycle, .cycle, .loseOut 2, .cycle, .deliver, .deliver, .deliver,
      .take, .cycle]
    t.received = [1#8, 2#8, 3#8, 4#8, 5#8, 6#8] ∧ t.queued 3 = [7#8, 8#8, 9#8] ∧
      t.inFlight .EightBytes 0x8010#16 = [] := by decide +kernel

/-- A cycle with empty images fails and loses nothing. -/
example :
    let evs : List LatePlantEv := [.write [1#8], .cycle, .cycle, .failing [] [], .cycle, .deliver,
      .deliver, .deliver, .take]
    LatePlant.OnlyUndecodable true exCfg evs ∧
      (exLatePlant.run true 3 .EightBytes 0x0010#16 0x8010#16 evs).received = [1#8] := by
  refine ⟨fun pi po h => ?_, by decide +kernel⟩
  simp only [List.mem_cons, List.not_mem_nil, or_false, reduceCtorEq, false_or,
    LatePlantEv.failing.injEq] at h
  obtain ⟨rfl, rfl⟩ := h
  refine ⟨?_, fun h => by cases h⟩
  rintro ⟨h, -⟩
  have := (h 2 .UR20_4DI_P _ _ _ ⟨rfl, rfl, rfl, rfl⟩ (by decide)).1.2.2
  revert this
  decide

/-- A byte is written and its image lost. Three rounds deliver it: the images of the inputs of the last
two carry the acknowledgement. -/
example :
    let t := exLatePlant.run true 3 .EightBytes 0x0010#16 0x8010#16 [.write [1#8], .cycle, .cycle,
      .cycle, .loseOut 0, .loseOut 0, .loseOut 0]
    let pis := [exPi, exPi.set 1 0x0020#16, exPi.set 1 0x0020#16]
    LatePlant.GoodRounds true 3 .EightBytes 0x0010#16 0x8010#16 t pis ∧
      (t.rounds true 3 .EightBytes 0x0010#16 0x8010#16 pis).received = [1#8] ∧
      (t.c.processors 3).map (·.outData) = some [] := by
  refine ⟨⟨⟨_, rfl, by decide +kernel⟩, ⟨_, rfl⟩, ⟨_, rfl, by decide +kernel⟩, ⟨_, rfl⟩,
    ⟨_, rfl, by decide +kernel⟩, ⟨_, rfl⟩, trivial⟩, by decide +kernel, by decide +kernel⟩

end Ur20
