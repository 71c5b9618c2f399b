import Verif.Spec.PowerNet
import Verif.Props.Network
import Verif.Props.Power

/-!
# Power failures of a station with any number of serial devices: C124
-/

namespace Ur20

open Spec Com Coupler
open scoped List

namespace Spec.PowerNet

/-! ### Blank images -/

theorem byteAt_blank (img : List Word) (p : Nat) :
    byteAt (List.replicate img.length 0#16) p = (byteAt img p).map fun _ => 0#8 := by
  unfold byteAt
  by_cases h : p / 2 < img.length
  · rw [List.getElem?_replicate, if_pos h, List.getElem?_eq_getElem h]
    simp
  · rw [List.getElem?_replicate, if_neg h, List.getElem?_eq_none (by omega)]
    rfl

theorem bytesAt_blank (img : List Word) (p n : Nat) :
    bytesAt (List.replicate img.length 0#16) p n =
      List.replicate (bytesAt img p n).length 0#8 := by
  unfold bytesAt
  induction List.range n with
  | nil => rfl
  | cons k ks ih =>
    simp only [byteAt_blank] at ih
    simp only [List.filterMap_cons, byteAt_blank]
    cases byteAt img (p + k) with
    | none => exact ih
    | some b => simp only [Option.map_some, ih, List.length_cons, List.replicate_succ]

theorem outFrame_blank {len : ProcessDataLength} {o : Word} {img : List Word} {f : RsOut}
    (h : outFrame len o img = some f) :
    outFrame len o (List.replicate img.length 0#16) = some PowerSys.blank := by
  unfold outFrame at h ⊢
  rw [bytesAt_blank]
  generalize bytesAt img (outByte o) len.byteCount = bs at h
  have h2 : 2 ≤ bs.length := by
    by_contra hl
    rw [(C21_output bs).1.2 (.inl (by omega))] at h
    cases h
  obtain ⟨n, hn⟩ : ∃ n, bs.length = n + 2 := ⟨bs.length - 2, by omega⟩
  rw [hn, (C21_output _).2 0#8 0#8 (List.replicate n 0#8) (by simp [List.replicate_succ]) (by simp)]
  rfl

/-! ### One module -/

/-- A power failure as seen by one module. -/
theorem sim_power {oc : Bool} {cfg : CouplerConfig} {w : Wiring} {s : Net} {j : Nat}
    {t : Sys} (sh : Option Nat)
    (h : Sending.QSim oc cfg j (w.wire j).len (w.wire j).oi (w.wire j).oo (s.at_ j) t)
    (a r : Nat → Fin 4) :
    Sending.QSim oc cfg j (w.wire j).len (w.wire j).oi (w.wire j).oo ((powered s a r).at_ j)
      ((⟨t, sh⟩ : PowerSys).step (w.wire j).len (.power (a j) (r j))).sys := by
  have hs := h.sim
  refine ⟨⟨hs.inv, hs.serial, hs.disjoint, hs.proc, hs.write, hs.cycles, ?_, hs.pending, rfl, rfl,
    rfl, rfl, hs.written, hs.received, hs.seen, hs.delivered, rfl⟩, h.reach, h.waiting⟩
  exact outFrame_blank (img := s.out) (f := t.out) hs.out

/-- Every other step as seen by one module. -/
theorem sim_step {oc : Bool} {cfg : CouplerConfig} {w : Wiring} {j : Nat} (hj : j ∈ w.modules)
    {c0 : Coupler} (h0 : Coupler.new cfg = .ok c0)
    (hs0 : SerialAt c0 j (w.wire j).len (w.wire j).oi (w.wire j).oo)
    (hd0 : BytesKept (infos c0) j) {s : Net} {t : Sys}
    (h : Sending.QSim oc cfg j (w.wire j).len (w.wire j).oi (w.wire j).oo (s.at_ j) t) (e : NEv) :
    ∃ evs, Sending.QSim oc cfg j (w.wire j).len (w.wire j).oi (w.wire j).oo
      ((s.step oc cfg w e).at_ j) (t.urun (w.wire j).len evs) := by
  rcases Net.step_at (oc := oc) (cfg := cfg) hj s e with h1 | ⟨e', h1, -⟩
  · exact ⟨[], by rw [h1]; exact h⟩
  · obtain ⟨evs, h2, -⟩ := h.step h0 hs0 hd0 e'
    exact ⟨evs, by rw [h1]; exact h2⟩

theorem sim_pending {oc : Bool} {cfg : CouplerConfig} {j : Nat} {len : ProcessDataLength}
    {oi oo : Word} {s : Net} {t : Sys} (h : Sending.QSim oc cfg j len oi oo (s.at_ j) t)
    (hp : s.pending = none) : t.pending = none := by
  have := h.sim.pending
  simp only [Plant.cleared, Net.at_, hp] at this
  cases ht : t.pending with
  | none => rfl
  | some x => rw [ht] at this; simp at this

/-- The invariants of one module. -/
theorem sim_run {oc : Bool} {cfg : CouplerConfig} {w : Wiring} {j : Nat} (hj : j ∈ w.modules)
    {c0 : Coupler} (h0 : Coupler.new cfg = .ok c0)
    (hs0 : SerialAt c0 j (w.wire j).len (w.wire j).oi (w.wire j).oo)
    (hd0 : BytesKept (infos c0) j) (s : PowerNet) {t : Sys}
    (h : Sending.QSim oc cfg j (w.wire j).len (w.wire j).oi (w.wire j).oo (s.net.at_ j) t)
    (ho : PowerSys.OrdInv t) (evs : List StationEv) :
    ∃ t', Sending.QSim oc cfg j (w.wire j).len (w.wire j).oi (w.wire j).oo
        ((s.run oc cfg w evs).net.at_ j) t' ∧ PowerSys.OrdInv t' ∧
      (s.BetweenCycles oc cfg w evs → t.UInv → t'.UInv) := by
  induction evs generalizing s t with
  | nil => exact ⟨t, h, ho, fun _ hu => hu⟩
  | cons e evs ih =>
    cases e with
    | ev e =>
      obtain ⟨tevs, h1⟩ := sim_step hj h0 hs0 hd0 h e
      have ho' : PowerSys.OrdInv (t.urun (w.wire j).len tevs) := by
        have : ∀ (l : List UEv) (u : Sys),
            (⟨u.urun (w.wire j).len l, none⟩ : PowerSys).sys =
              ((⟨u, none⟩ : PowerSys).run (w.wire j).len (l.map .ev)).sys := by
          intro l
          induction l using List.reverseRecOn with
          | nil => intro u; rfl
          | append_singleton l x ih =>
            intro u
            have := ih u
            simp only at this
            simp only [Sys.urun, PowerSys.run, List.map_append, List.foldl_append] at this ⊢
            simp only [List.map_cons, List.map_nil, List.foldl_cons, List.foldl_nil, PowerSys.step]
            rw [this]
        have h2 := this tevs t
        simp only at h2
        rw [h2]
        exact PowerSys.OrdInv.run (s := ⟨t, none⟩) ho _
      obtain ⟨t', g1, g2, g3⟩ := ih (s.step oc cfg w (.ev e)) h1 ho'
      exact ⟨t', g1, g2, fun hb hu => g3 hb.2 (hu.urun tevs)⟩
    | power a r =>
      obtain ⟨t', g1, g2, g3⟩ := ih (s.step oc cfg w (.power a r)) (sim_power none h a r)
        (PowerSys.OrdInv.step (s := ⟨t, none⟩) ho (.power (a j) (r j)))
      exact ⟨t', g1, g2, fun hb hu => g3 hb.2 (PowerSys.UInv.step (s := ⟨t, none⟩) hu
        (.power (a j) (r j)) (fun _ _ _ => sim_pending h hb.1))⟩

/-! ### What is shown -/

/-- The numbers shown in a schedule of the closed system in which no cycle starts. -/
theorem rec_quiet {len : ProcessDataLength} {t : Sys} {sh : Option Nat}
    (h : PowerSys.RecInv ⟨t, sh⟩) (evs : List UEv) (hc : NoCrash evs) :
    t.cycles ≤ (t.urun len evs).cycles ∧
    ((t.urun len evs).cycles = t.cycles → PowerSys.RecInv ⟨t.urun len evs, sh⟩) := by
  have key : ∀ (l : List UEv), NoCrash l → t.cycles ≤ (t.urun len l).cycles ∧
      ∃ sh', PowerSys.RecInv ⟨t.urun len l, sh'⟩ ∧ ((t.urun len l).cycles = t.cycles → sh' = sh) := by
    intro l
    induction l using List.reverseRecOn with
    | nil => intro _; exact ⟨Nat.le_refl _, sh, h, fun _ => rfl⟩
    | append_singleton l x ih =>
      intro hl
      obtain ⟨h1, sh', h2, h3⟩ := ih fun e he => hl e (List.mem_append_left _ he)
      have hu : t.urun len (l ++ [x]) = (t.urun len l).ustep len x := by
        simp [Sys.urun, List.foldl_append]
      rw [hu]
      generalize t.urun len l = u at h1 h2 h3
      cases x with
      | crash => exact absurd rfl (hl .crash (by simp))
      | lost =>
        exact ⟨h1, sh', PowerSys.RecInv.run h2 [.ev .lost] (by
          intro e he; simp at he; subst he; simp) trivial trivial, h3⟩
      | ev e =>
        have h4 := h2.ev e
        cases e with
        | start nf rdy =>
          by_cases hp : u.pending = none
          · have hcy : (u.ustep len (.ev (.start nf rdy))).cycles = u.cycles + 1 := by
              simp only [Sys.ustep, Sys.step, hp, Option.isSome_none, Bool.false_eq_true, if_false]
              split <;> rfl
            refine ⟨by omega, _, h4, fun h => by omega⟩
          · have hst : u.ustep len (.ev (.start nf rdy)) = u := by
              simp only [Sys.ustep, Sys.step]
              rw [if_pos (by cases hq : u.pending <;> simp_all)]
            rw [hst]
            exact ⟨h1, sh', h2, h3⟩
        | write b => exact ⟨h1, sh', h4, h3⟩
        | read n =>
          have : (u.ustep len (.ev (.read n))).cycles = u.cycles := by
            simp only [Sys.ustep, Sys.step, read_ok]
          exact ⟨by omega, sh', h4, fun h => h3 (by omega)⟩
        | finish =>
          have : (u.ustep len (.ev .finish)).cycles = u.cycles := by
            simp only [Sys.ustep, Sys.step]; split <;> rfl
          exact ⟨by omega, sh', h4, fun h => h3 (by omega)⟩
        | take =>
          have : (u.ustep len (.ev .take)).cycles = u.cycles := by
            simp only [Sys.ustep, Sys.step]; split <;> rfl
          exact ⟨by omega, sh', h4, fun h => h3 (by omega)⟩
        | post seg =>
          have : (u.ustep len (.ev (.post seg))).cycles = u.cycles := by
            simp only [Sys.ustep, Sys.step]; split <;> rfl
          exact ⟨by omega, sh', h4, fun h => h3 (by omega)⟩
        | hide =>
          have : (u.ustep len (.ev .hide)).cycles = u.cycles := by
            simp only [Sys.ustep, Sys.step]; split <;> rfl
          exact ⟨by omega, sh', h4, fun h => h3 (by omega)⟩
        | restart n =>
          have : (u.ustep len (.ev (.restart n))).cycles = u.cycles := by
            simp only [Sys.ustep, Sys.step]; split <;> rfl
          exact ⟨by omega, sh', h4, fun h => h3 (by omega)⟩
  obtain ⟨h1, sh', h2, h3⟩ := key evs hc
  exact ⟨h1, fun h => by rw [h3 h] at h2; exact h2⟩

/-- Feeding bytes to the processor. -/
theorem rec_feed {t : Sys} {sh : Option Nat} (h : PowerSys.RecInv ⟨t, sh⟩)
    (v : Option ChannelValue) : PowerSys.RecInv ⟨t.run (Sending.feedEvs v), sh⟩ := by
  cases v with
  | none => exact h
  | some v =>
    cases v <;> first | exact h | exact h.ev (.write _)

/-- A cycle. -/
theorem rec_start {t : Sys} {sh : Option Nat} (h : PowerSys.RecInv ⟨t, sh⟩)
    (v : Option ChannelValue) (hp : t.pending = none) (nf rdy : Bool) :
    ((t.run (Sending.feedEvs v)).step (.start nf rdy)).cycles = t.cycles + 1 ∧
    PowerSys.RecInv ⟨(t.run (Sending.feedEvs v)).step (.start nf rdy),
      if 2 < t.cycles + 1 ∧ t.avail = true then some t.rxCnt else sh⟩ := by
  have h1 := (rec_feed h v).start nf rdy
  have h2 := Sending.feed_run t v
  rw [h2] at h1 ⊢
  simp only [PowerSys.note, hp, true_and] at h1
  constructor
  · simp only [Sys.step, hp, Option.isSome_none, Bool.false_eq_true, if_false]
    split <;> rfl
  · have : (2 < t.cycles + 1 ∧ t.avail = true) = (2 ≤ t.cycles ∧ t.avail = true) := by
      rw [Nat.lt_succ_iff]
    simp only [this, hp]
    exact h1

/-- Every step but a crash, with the numbers shown. -/
theorem rec_step {oc : Bool} {cfg : CouplerConfig} {w : Wiring} {j : Nat} (hj : j ∈ w.modules)
    {c0 : Coupler} (h0 : Coupler.new cfg = .ok c0)
    (hs0 : SerialAt c0 j (w.wire j).len (w.wire j).oi (w.wire j).oo)
    (hd0 : BytesKept (infos c0) j) {s : PowerNet} {t : Sys}
    (h : Sending.QSim oc cfg j (w.wire j).len (w.wire j).oi (w.wire j).oo (s.net.at_ j) t)
    (hr : PowerSys.RecInv ⟨t, s.shown j⟩) (e : NEv) (he : e ≠ .crash) :
    ∃ t', Sending.QSim oc cfg j (w.wire j).len (w.wire j).oi (w.wire j).oo
        ((s.step oc cfg w (.ev e)).net.at_ j) t' ∧
      PowerSys.RecInv ⟨t', (s.step oc cfg w (.ev e)).shown j⟩ := by
  -- the number shown, from the states of the closed system
  have hnote : ∀ t' : Sys, Sending.QSim oc cfg j (w.wire j).len (w.wire j).oi (w.wire j).oo
        ((s.step oc cfg w (.ev e)).net.at_ j) t' →
      (s.step oc cfg w (.ev e)).shown j =
        if t'.cycles = t.cycles + 1 ∧ 2 < t'.cycles ∧ t.avail = true then some t.rxCnt
        else s.shown j := by
    intro t' h'
    have e1 : t'.cycles = (s.net.step oc cfg w e).cycles := h'.sim.cycles
    have e2 : t.cycles = s.net.cycles := h.sim.cycles
    have e3 : t.avail = (s.net.line j).avail := h.sim.avail
    have e4 : t.rxCnt = (s.net.line j).rxCnt := h.sim.rxCnt
    rw [e1, e2, e3, e4]
    cases e <;> first | exact absurd rfl he | rfl
  suffices H : ∃ t', Sending.QSim oc cfg j (w.wire j).len (w.wire j).oi (w.wire j).oo
        ((s.step oc cfg w (.ev e)).net.at_ j) t' ∧
      PowerSys.RecInv ⟨t', if t'.cycles = t.cycles + 1 ∧ 2 < t'.cycles ∧ t.avail = true then
        some t.rxCnt else s.shown j⟩ by
    obtain ⟨t', g1, g2⟩ := H
    exact ⟨t', g1, by rw [hnote t' g1]; exact g2⟩
  have quiet : ∀ t' : Sys, t'.cycles = t.cycles → PowerSys.RecInv ⟨t', s.shown j⟩ →
      PowerSys.RecInv ⟨t', if t'.cycles = t.cycles + 1 ∧ 2 < t'.cycles ∧ t.avail = true then
        some t.rxCnt else s.shown j⟩ := by
    intro t' hc hq
    rw [if_neg (by omega)]
    exact hq
  have loud : ∀ t' : Sys, t'.cycles = t.cycles + 1 →
      PowerSys.RecInv ⟨t', if 2 < t.cycles + 1 ∧ t.avail = true then some t.rxCnt
        else s.shown j⟩ →
      PowerSys.RecInv ⟨t', if t'.cycles = t.cycles + 1 ∧ 2 < t'.cycles ∧ t.avail = true then
        some t.rxCnt else s.shown j⟩ := by
    intro t' hc hq
    simp only [hc, true_and]
    exact hq
  show ∃ t', Sending.QSim oc cfg j (w.wire j).len (w.wire j).oi (w.wire j).oo
        ((s.net.step oc cfg w e).at_ j) t' ∧ _
  rcases Net.step_at (oc := oc) (cfg := cfg) hj s.net e with h1 | ⟨e', h1, hcr, -⟩
  · rw [h1]
    exact ⟨t, h, quiet t rfl hr⟩
  · rw [h1]
    have hcr := hcr he
    have hsil : ∀ evs : List UEv, NoCrash evs →
        Sending.QSim oc cfg j (w.wire j).len (w.wire j).oi (w.wire j).oo
          ((s.net.at_ j).step oc cfg j (w.wire j).len (w.wire j).oi (w.wire j).oo e')
          (t.urun (w.wire j).len evs) →
        ((s.net.at_ j).step oc cfg j (w.wire j).len (w.wire j).oi (w.wire j).oo e').plant.cycles =
          (s.net.at_ j).plant.cycles →
        ∃ t', Sending.QSim oc cfg j (w.wire j).len (w.wire j).oi (w.wire j).oo
          ((s.net.at_ j).step oc cfg j (w.wire j).len (w.wire j).oi (w.wire j).oo e') t' ∧
        PowerSys.RecInv ⟨t', if t'.cycles = t.cycles + 1 ∧ 2 < t'.cycles ∧ t.avail = true then
          some t.rxCnt else s.shown j⟩ := by
      intro evs hnc hq hcy
      have k1 : (t.urun (w.wire j).len evs).cycles = t.cycles := by
        rw [hq.sim.cycles, h.sim.cycles]; exact hcy
      exact ⟨_, hq, quiet _ k1 ((rec_quiet hr evs hnc).2 k1)⟩
    obtain ⟨evs, h2, h3, -⟩ := h.step h0 hs0 hd0 e'
    have hcy : (∀ pi, e' ≠ .ev (.ev (.start pi))) → (∀ pi, e' ≠ .ev (.failing pi)) →
        ((s.net.at_ j).step oc cfg j (w.wire j).len (w.wire j).oi (w.wire j).oo e').plant.cycles =
          (s.net.at_ j).plant.cycles := by
      intro n1 n2
      cases e' with
      | set v => rfl
      | ev e' =>
        cases e' with
        | crash => exact absurd rfl hcr
        | failing pi => exact absurd rfl (n2 pi)
        | lost => simp [Sending.step, Plant.ustep]
        | ev e' =>
          have := (Plant.step_cleared (oc := oc) (j := j) (len := (w.wire j).len)
            (oi := (w.wire j).oi) (oo := (w.wire j).oo) (s.net.at_ j).plant e'
            (fun pi hp => n1 pi (by rw [hp]))).2.2
          rw [Net.sending_ev _ _ this]
          exact this
    by_cases n1 : ∃ pi, e' = .ev (.ev (.start pi))
    · obtain ⟨pi, rfl⟩ := n1
      rcases Sending.start_cases oc j (w.wire j).len (w.wire j).oi (w.wire j).oo
        (s.net.at_ j).plant pi with hst | ⟨f, c', img, hp, hf, hn, hpr⟩
      · refine hsil evs (h3 hcr) h2 ?_
        simp only [Sending.step, Plant.ustep, hst]
        rw [if_neg (by omega)]
      · obtain ⟨q1, -⟩ := h.start hp hf hpr hn
        obtain ⟨k1, k2⟩ := rec_start hr (s.net.at_ j).waiting (sim_pending h hp)
          f.bufferNearlyFull f.ready
        exact ⟨_, q1, loud _ k1 k2⟩
    · by_cases n2 : ∃ pi, e' = .ev (.failing pi)
      · obtain ⟨pi, rfl⟩ := n2
        obtain ⟨evs', q1, q2, -, q4⟩ := h.failing pi
        rcases q4 with rfl | ⟨nf, rdy, rfl⟩
        · exact ⟨t, q1, quiet t rfl hr⟩
        · by_cases hp : s.net.pending = none
          · obtain ⟨k1, k2⟩ := rec_start hr (s.net.at_ j).waiting (sim_pending h hp) nf rdy
            have hu : t.urun (w.wire j).len ((Sending.feedEvs (s.net.at_ j).waiting).map .ev ++
                [.ev (.start nf rdy), .lost]) =
                ((t.run (Sending.feedEvs (s.net.at_ j).waiting)).step (.start nf rdy)).ustep
                  (w.wire j).len .lost := by
              rw [urun_append, run_urun]; rfl
            rw [hu] at q1
            exact ⟨_, q1, loud _ k1 (PowerSys.RecInv.run k2 [.ev .lost] (by
              intro e he; simp at he; subst he; simp) trivial trivial)⟩
          · refine hsil evs (h3 hcr) h2 ?_
            have hst : (s.net.at_ j).plant.ustep oc cfg j (w.wire j).len (w.wire j).oi (w.wire j).oo
                (.failing pi) = (s.net.at_ j).plant := by
              obtain ⟨x, hx⟩ := Option.ne_none_iff_exists'.1 hp
              have hx : (s.net.at_ j).plant.pending = some x := hx
              simp only [Plant.ustep, hx]
            simp only [Sending.step, hst]
            rw [if_neg (by omega)]
      · exact hsil evs (h3 hcr) h2 (hcy (fun pi hp => n1 ⟨pi, hp⟩) (fun pi hp => n2 ⟨pi, hp⟩))

theorem rec_run {oc : Bool} {cfg : CouplerConfig} {w : Wiring} {j : Nat} (hj : j ∈ w.modules)
    {c0 : Coupler} (h0 : Coupler.new cfg = .ok c0)
    (hs0 : SerialAt c0 j (w.wire j).len (w.wire j).oi (w.wire j).oo)
    (hd0 : BytesKept (infos c0) j) (s : PowerNet) {t : Sys}
    (h : Sending.QSim oc cfg j (w.wire j).len (w.wire j).oi (w.wire j).oo (s.net.at_ j) t)
    (hr : PowerSys.RecInv ⟨t, s.shown j⟩) (evs : List StationEv) (hc : KeepsGoing evs)
    (hb : s.BetweenCycles oc cfg w evs) (hn : s.NewNumbers oc cfg w j evs) :
    ∃ t', Sending.QSim oc cfg j (w.wire j).len (w.wire j).oi (w.wire j).oo
        ((s.run oc cfg w evs).net.at_ j) t' ∧
      PowerSys.RecInv ⟨t', (s.run oc cfg w evs).shown j⟩ := by
  induction evs generalizing s t with
  | nil => exact ⟨t, h, hr⟩
  | cons e evs ih =>
    have hc' : KeepsGoing evs := fun e he => hc e (List.mem_cons_of_mem _ he)
    cases e with
    | ev e =>
      obtain ⟨t', g1, g2⟩ := rec_step hj h0 hs0 hd0 h hr e (by
        rintro rfl; exact hc (.ev .crash) (by simp) rfl)
      exact ih (s.step oc cfg w (.ev e)) g1 g2 hc' hb.2 hn.2
    | power a r =>
      refine ih (s.step oc cfg w (.power a r)) (sim_power (s.shown j) h a r) ?_ hc' hb.2 hn.2
      exact PowerSys.RecInv.run (len := (w.wire j).len) hr [.power (a j) (r j)]
        (by intro e he; simp at he; subst he; simp)
        ⟨sim_pending h hb.1, trivial⟩ ⟨hn.1, trivial⟩

/-! ### Accepted values -/

theorem accepted_step {oc : Bool} {cfg : CouplerConfig} {w : Wiring} {s : Net}
    (hacc : ∀ i ∈ w.modules, ∀ t, cfg.modules[i]? = some t → ∀ v, Accepts t v)
    {j : Nat} (hj : j ∈ w.modules) {t : Sys}
    (h : Sending.QSim oc cfg j (w.wire j).len (w.wire j).oi (w.wire j).oo (s.at_ j) t)
    (hp : PendingAccepted cfg s.c) (e : NEv)
    (he : ∀ a v, e = .other (.setOutput a v) → ∀ t, cfg.modules[a.module]? = some t → Accepts t v) :
    PendingAccepted cfg (s.step oc cfg w e).c := by
  rcases Net.step_at (oc := oc) (cfg := cfg) hj s e with h1 | ⟨e', h1, -, -, h4⟩
  · have : (s.step oc cfg w e).c = s.c := congrArg (fun x => x.plant.c) h1
    rw [this]; exact hp
  · have := congrArg (fun x => x.plant.c) h1
    have h2 : (s.step oc cfg w e).c = ((s.at_ j).step oc cfg j (w.wire j).len (w.wire j).oi
      (w.wire j).oo e').plant.c := this
    rw [h2]
    refine Sending.pending_step h.serial h.reach hp e' ?_
    intro a v hx t ht
    rcases h4 a v hx with h5 | h5
    · exact he a v h5 t ht
    · exact hacc _ h5 t ht v

theorem accepted_run {oc : Bool} {cfg : CouplerConfig} {w : Wiring}
    (hacc : ∀ i ∈ w.modules, ∀ t, cfg.modules[i]? = some t → ∀ v, Accepts t v)
    {j : Nat} (hj : j ∈ w.modules) {c0 : Coupler} (h0 : Coupler.new cfg = .ok c0)
    (hs0 : SerialAt c0 j (w.wire j).len (w.wire j).oi (w.wire j).oo)
    (hd0 : BytesKept (infos c0) j) (s : PowerNet) {t : Sys}
    (h : Sending.QSim oc cfg j (w.wire j).len (w.wire j).oi (w.wire j).oo (s.net.at_ j) t)
    (hp : PendingAccepted cfg s.net.c) (evs : List StationEv) (hv : AcceptedValuesP cfg evs) :
    PendingAccepted cfg (s.run oc cfg w evs).net.c := by
  induction evs generalizing s t with
  | nil => exact hp
  | cons e evs ih =>
    have hv' : AcceptedValuesP cfg evs := fun a v hx => hv a v (List.mem_cons_of_mem _ hx)
    cases e with
    | ev e =>
      obtain ⟨tevs, h1⟩ := sim_step hj h0 hs0 hd0 h e
      exact ih (s.step oc cfg w (.ev e)) h1 (accepted_step hacc hj h hp e
        (fun a v hx => hv a v (by rw [hx]; simp))) hv'
    | power a r => exact ih (s.step oc cfg w (.power a r)) (sim_power none h a r) hp hv'

/-- The closed system of a module at the start. -/
theorem initial_sim {oc : Bool} {cfg : CouplerConfig} {w : Wiring} {s : Net}
    (h : s.Initial cfg w) {j : Nat} (hj : j ∈ w.modules) :
    ∃ t, t.Initial (w.wire j).len ∧
      Sending.QSim oc cfg j (w.wire j).len (w.wire j).oi (w.wire j).oo (s.at_ j) t := by
  obtain ⟨hi, he⟩ := Net.initial_at h hj
  obtain ⟨t2, k1, k2⟩ := hi.sim
  refine ⟨t2, k1, ?_⟩
  rw [he]
  exact ⟨by rw [Sending.cleared_eq k2.write]; exact k2, ⟨s.c, [], h.c, rfl⟩, k2.write⟩

end Spec.PowerNet

/-! ### C124 -/

/-- C124: if the power of the station fails between cycles only, then whatever cycles fail, whatever
images are lost and wherever the application crashes, every device takes over bytes that were
written to its own module, each at most once and in order. -/
theorem C124_order (oc : Bool) (cfg : CouplerConfig) (w : Wiring) (s : Net) (h : s.Initial cfg w)
    (evs : List StationEv) (hb : (⟨s, fun _ => none⟩ : PowerNet).BetweenCycles oc cfg w evs)
    (j : Nat) (hj : j ∈ w.modules) :
    let r := ((⟨s, fun _ => none⟩ : PowerNet).run oc cfg w evs).net
    (r.line j).received ++ r.inFlight w j ++ r.queued j <+ (r.line j).written := by
  obtain ⟨t, h1, h2⟩ := PowerNet.initial_sim (oc := oc) h hj
  obtain ⟨t', g1, -, g3⟩ := PowerNet.sim_run hj h.c (h.serial j hj) (h.disjoint j hj)
    ⟨s, fun _ => none⟩ h2 (PowerSys.OrdInv.initial h1) evs
  have g3 := (g3 hb (Sys.UInv.initial h1)).bytes
  have e1 := g1.sim.same_queued
  have e2 := g1.sim.same_inFlight
  rw [← e1, ← e2, g1.sim.received, g1.sim.written] at g3
  exact g3

/-- C124: a power failure between cycles loses nothing but the segments in flight. -/
theorem C124_loss (oc : Bool) (cfg : CouplerConfig) (w : Wiring) (s : PowerNet)
    (hp : s.net.pending = none) (a r : Nat → Fin 4) (j : Nat) :
    let t := (s.step oc cfg w (.power a r)).net
    (t.line j).received = (s.net.line j).received ∧ t.queued j = s.net.queued j ∧
      (t.line j).waiting = (s.net.line j).waiting ∧ t.buffered j = s.net.buffered j ∧
      (s.net.inFlight w j = [] ∨ ∃ f, outFrame (w.wire j).len (w.wire j).oo s.net.out = some f ∧
        s.net.inFlight w j = f.data) := by
  refine ⟨rfl, rfl, rfl, rfl, ?_⟩
  unfold Net.inFlight
  rw [hp]
  cases hf : outFrame (w.wire j).len (w.wire j).oo s.net.out with
  | none => exact .inl rfl
  | some f =>
    by_cases ht : f.txCnt = ((s.net.line j).ack + 1) % 4
    · exact .inr ⟨f, rfl, by simp [ht]⟩
    · exact .inl (by simp [ht])

/-- C124: after any such history, rounds of a cycle in which every device looks at the image deliver
everything that is in flight, queued or waiting, on all modules at once. -/
theorem C124_delivered (oc : Bool) (cfg : CouplerConfig) (w : Wiring)
    (s : Net) (h : s.Initial cfg w) (evs : List StationEv) (hv : AcceptedValuesP cfg evs)
    (hb : (⟨s, fun _ => none⟩ : PowerNet).BetweenCycles oc cfg w evs) :
    let r := ((⟨s, fun _ => none⟩ : PowerNet).run oc cfg w evs).net
    r.pending = none → OutputsReady cfg r.out → 2 ≤ r.cycles →
    ∀ pis, r.GoodInputs oc cfg w pis →
      (∀ j ∈ w.modules, 1 + r.segments j + ((sentBytes (r.line j).waiting).length +
        capacity (w.wire j).len - 1) / capacity (w.wire j).len ≤ pis.length) →
      ∀ j ∈ w.modules, ((r.rounds oc cfg w pis).line j).received =
        (r.line j).received ++ r.inFlight w j ++ r.queued j ++ sentBytes (r.line j).waiting := by
  intro r hp ho hc pis hg hk j hj
  obtain ⟨t, h1, h2⟩ := PowerNet.initial_sim (oc := oc) h hj
  obtain ⟨t', g1, -, g3⟩ := PowerNet.sim_run hj h.c (h.serial j hj) (h.disjoint j hj)
    ⟨s, fun _ => none⟩ h2 (PowerSys.OrdInv.initial h1) evs
  have g3 := g3 hb (Sys.UInv.initial h1)
  have hacc := PowerNet.accepted_run (Net.initial_accepts h) hj h.c (h.serial j hj) (h.disjoint j hj)
    ⟨s, fun _ => none⟩ h2 (initial_pending (Net.initial_at h hj).1) evs hv
  obtain ⟨k1, wr, k2⟩ := Net.rounds_at (oc := oc) (cfg := cfg) h.distinct hj r pis hg
  have := g1.deliver g3.init g3.ack hp ho hc hacc pis k1 (hk j hj)
  have h5 : ((r.rounds oc cfg w pis).line j).received =
    (((r.rounds oc cfg w pis).at_ j).plant).received := rfl
  rw [h5, k2]
  exact this

/-- C124: whatever happens, what is read from a module comes from its own device, each segment at
most once and in order. -/
theorem C124_receive_order (oc : Bool) (cfg : CouplerConfig) (w : Wiring) (s : Net)
    (h : s.Initial cfg w) (evs : List StationEv) (j : Nat) (hj : j ∈ w.modules) :
    let r := ((⟨s, fun _ => none⟩ : PowerNet).run oc cfg w evs).net
    (r.line j).delivered ++ r.buffered j <+ (r.line j).seen := by
  obtain ⟨t, h1, h2⟩ := PowerNet.initial_sim (oc := oc) h hj
  obtain ⟨t', g1, g2, -⟩ := PowerNet.sim_run hj h.c (h.serial j hj) (h.disjoint j hj)
    ⟨s, fun _ => none⟩ h2 (PowerSys.OrdInv.initial h1) evs
  have g2 := g2.bytes
  have hb : ((((⟨s, fun _ => none⟩ : PowerNet).run oc cfg w evs).net)).buffered j = t'.p.inData := by
    have := g1.sim.proc
    simp only [Plant.cleared, Net.at_] at this
    unfold Net.buffered
    rw [this]
  simp only
  rw [hb]
  have e1 := g1.sim.delivered
  have e2 := g1.sim.seen
  simp only [Plant.cleared, Net.at_] at e1 e2
  rw [← e1, ← e2]
  exact g2

/-- C124: if the power fails between cycles only, the application does not crash and the first
segment of a device after a power failure has another number than the last one shown before, what is
read from its module is exactly what the device has shown. -/
theorem C124_receive (oc : Bool) (cfg : CouplerConfig) (w : Wiring) (s : Net)
    (h : s.Initial cfg w) (evs : List StationEv) (hc : KeepsGoing evs)
    (hb : (⟨s, fun _ => none⟩ : PowerNet).BetweenCycles oc cfg w evs) (j : Nat) (hj : j ∈ w.modules)
    (hn : (⟨s, fun _ => none⟩ : PowerNet).NewNumbers oc cfg w j evs) :
    let r := ((⟨s, fun _ => none⟩ : PowerNet).run oc cfg w evs).net
    (r.line j).delivered ++ r.buffered j = (r.line j).seen := by
  obtain ⟨t, h1, h2⟩ := PowerNet.initial_sim (oc := oc) h hj
  obtain ⟨t', g1, g2⟩ := PowerNet.rec_run hj h.c (h.serial j hj) (h.disjoint j hj)
    ⟨s, fun _ => none⟩ h2 (PowerSys.RecInv.initial h1 rfl) evs hc hb hn
  have g2 := g2.bytes
  have hb : ((((⟨s, fun _ => none⟩ : PowerNet).run oc cfg w evs).net)).buffered j = t'.p.inData := by
    have := g1.sim.proc
    simp only [Plant.cleared, Net.at_] at this
    unfold Net.buffered
    rw [this]
  simp only
  rw [hb]
  have e1 := g1.sim.delivered
  have e2 := g1.sim.seen
  simp only [Plant.cleared, Net.at_] at e1 e2
  rw [← e1, ← e2]
  exact g2

/-- The station of C95: a segment of the second device is shown, bytes are written to the first
module, one segment is put into the image, and then the power fails. The devices start with new
numbers, and the second one presents another segment. -/
def exPowerEvs : List StationEv :=
  [.ev (.start (List.replicate 8 0#16)), .ev .finish, .ev (.start (List.replicate 8 0#16)),
   .ev .finish, .ev (.write 1 [1#8, 2#8, 3#8, 4#8, 5#8, 6#8, 7#8]), .ev (.post 2 [0x41#8]),
   .ev (.start [0#16, 0#16, 0#16, 0#16, 0x0109#16, 0x0041#16, 0#16, 0#16]), .ev .finish,
   .power (fun _ => 2) (fun _ => 1),
   .ev (.start [0x0048#16, 0#16, 0#16, 0#16, 0x0048#16, 0#16, 0#16, 0#16]), .ev .finish,
   .ev (.take 1), .ev (.post 2 [0x42#8]),
   .ev (.start [0x0068#16, 0#16, 0#16, 0#16, 0x0151#16, 0x0042#16, 0#16, 0#16]), .ev .finish]

noncomputable def exPowerNet : PowerNet :=
  (⟨exNet, fun _ => none⟩ : PowerNet).run true exDuo exWires exPowerEvs

/-- The schedule meets the hypotheses … -/
example : KeepsGoing exPowerEvs ∧ AcceptedValuesP exDuo exPowerEvs ∧
    (⟨exNet, fun _ => none⟩ : PowerNet).BetweenCycles true exDuo exWires exPowerEvs ∧
    (⟨exNet, fun _ => none⟩ : PowerNet).NewNumbers true exDuo exWires 2 exPowerEvs := by
  refine ⟨?_, ?_, ?_, ?_⟩
  · intro e he; rintro rfl; simp [exPowerEvs] at he
  · intro a v he; simp [exPowerEvs] at he
  · simp only [exPowerEvs, PowerNet.BetweenCycles, true_and, and_true]
    decide +kernel
  · simp only [exPowerEvs, PowerNet.NewNumbers, true_and, and_true]
    decide +kernel

/-- … the segment in flight is lost, the next one arrives, and both segments are received. -/
example : (exPowerNet.net.line 1).received = [7#8] ∧
    (exPowerNet.net.line 2).seen = [0x41#8, 0x42#8] ∧
    exPowerNet.net.buffered 2 = [0x41#8, 0x42#8] ∧ exPowerNet.net.cycles = 5 ∧
    exPowerNet.shown 2 = some 2 := by
  decide +kernel

/-- After the schedule two more bytes are written; two rounds follow. -/
def exPowerMore : List StationEv := exPowerEvs ++ [.ev (.write 1 [8#8, 9#8])]

def exPowerInputs : List (List Word) :=
  [[0x0068#16, 0#16, 0#16, 0#16, 0x0151#16, 0x0042#16, 0#16, 0#16],
   [0x0008#16, 0#16, 0#16, 0#16, 0x0151#16, 0x0042#16, 0#16, 0#16]]

noncomputable def exPowerMoreNet : Net :=
  ((⟨exNet, fun _ => none⟩ : PowerNet).run true exDuo exWires exPowerMore).net

theorem exPowerMore_calm : AcceptedValuesP exDuo exPowerMore ∧
    (⟨exNet, fun _ => none⟩ : PowerNet).BetweenCycles true exDuo exWires exPowerMore := by
  refine ⟨fun a v he => by simp [exPowerMore, exPowerEvs] at he, ?_⟩
  simp only [exPowerMore, exPowerEvs, List.cons_append, List.nil_append, PowerNet.BetweenCycles, true_and,
    and_true]
  decide +kernel

/-- The state meets the hypotheses of `C124_delivered` … -/
theorem exPowerMoreNet_good : exPowerMoreNet.pending = none ∧ OutputsReady exDuo exPowerMoreNet.out ∧
    exPowerMoreNet.cycles = 5 ∧ exPowerMoreNet.GoodInputs true exDuo exWires exPowerInputs := by
  refine ⟨by decide +kernel, ?_, by decide +kernel, ?_⟩
  · rw [show exPowerMoreNet.out = [0#16, 0x0138#16, 7#16, 0#16, 0#16, 0x0040#16, 0#16, 0#16, 0#16] by
      decide +kernel]
    constructor
    · intro j t par o i h hn
      rcases exDuo_at h with ⟨rfl, rfl, rfl, rfl, rfl⟩ | ⟨rfl, rfl, rfl, rfl, rfl⟩ |
        ⟨rfl, rfl, rfl, rfl, rfl⟩
      · exact ⟨by unfold InPlace; decide, by unfold Covers; decide, fun h => by cases h⟩
      · refine ⟨by unfold InPlace; decide, by unfold Covers; decide, fun _ b hb => ?_⟩
        rw [show byteAt _ _ = some 1#8 by decide] at hb
        cases hb; decide
      · refine ⟨by unfold InPlace; decide, by unfold Covers; decide, fun _ b hb => ?_⟩
        rw [show byteAt _ _ = some 0#8 by decide] at hb
        cases hb; decide
    · intro j t par o i ch us h hno ht
      rcases exDuo_at h with ⟨rfl, rfl, rfl, rfl, rfl⟩ | ⟨rfl, rfl, rfl, rfl, rfl⟩ |
        ⟨rfl, rfl, rfl, rfl, rfl⟩ <;> cases ht
  · have hin : ∀ pi ∈ exPowerInputs, InputsReady exDuo pi := by
      intro pi hpi j t par o i h hn
      simp only [exPowerInputs, List.mem_cons, List.not_mem_nil, or_false] at hpi
      rcases exDuo_at h with ⟨rfl, rfl, rfl, rfl, rfl⟩ | ⟨rfl, rfl, rfl, rfl, rfl⟩ |
        ⟨rfl, rfl, rfl, rfl, rfl⟩
      · exact absurd rfl hn
      · rcases hpi with rfl | rfl <;>
        · refine ⟨by unfold HasRegisters; decide, fun _ b hb => ?_⟩
          rw [show byteAt _ _ = some 0#8 by decide] at hb
          cases hb; decide
      · rcases hpi with rfl | rfl <;>
        · refine ⟨by unfold HasRegisters; decide, fun _ b hb => ?_⟩
          rw [show byteAt _ _ = some 1#8 by decide] at hb
          cases hb; decide
    exact ⟨hin _ (by simp [exPowerInputs]), by decide +kernel, hin _ (by simp [exPowerInputs]),
      by decide +kernel, trivial⟩

/-- … and after two rounds the device has what was written after the power failure. -/
example : ((exPowerMoreNet.rounds true exDuo exWires exPowerInputs).line 1).received =
    [7#8, 8#8, 9#8] := by
  obtain ⟨g1, g2, g3, g4⟩ := exPowerMoreNet_good
  have := C124_delivered true exDuo exWires exNet exNet_initial exPowerMore exPowerMore_calm.1
    exPowerMore_calm.2 g1 g2 (g3.symm ▸ by decide : 2 ≤ exPowerMoreNet.cycles) exPowerInputs g4
    (by
      intro j hj
      simp only [exWires, List.mem_cons, List.not_mem_nil, or_false] at hj
      rcases hj with rfl | rfl <;> exact (by decide +kernel))
    1 (by decide)
  exact this.trans (by decide +kernel)

end Ur20
