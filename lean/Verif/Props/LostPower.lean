import Verif.Props.LostNet
import Verif.Props.PowerNet
import Verif.Spec.LostPower

/-!
# C143: exactly which bytes are lost if the station may lose power
-/

namespace Ur20

open Spec Com Coupler
open scoped List

namespace Spec

/-- What has happened to the segments so far. -/
structure Kept (len : ProcessDataLength) (t : Sys) (lost : List (List Byte)) : Prop where
  inv : t.UInv
  fits : t.Fits len
  fates : t.Fates lost
  size : ∀ seg ∈ lost, seg ≠ [] ∧ seg.length ≤ len.userDataLen

theorem Kept.urun {len : ProcessDataLength} {t : Sys} {lost : List (List Byte)} (h : Kept len t lost)
    (evs : List UEv) : Kept len (t.urun len evs) (lost ++ t.lostSegments len evs) where
  inv := h.inv.urun evs
  fits := h.fits.urun h.inv evs
  fates := h.fates.urun h.inv evs
  size := by
    intro seg hs
    rcases List.mem_append.1 hs with hs | hs
    · exact h.size seg hs
    · exact h.fits.lostSegments h.inv evs seg hs

theorem Kept.initial {len : ProcessDataLength} {t : Sys} (h : t.Initial len) : Kept len t [] :=
  ⟨.initial h, .initial h, .initial h, by simp⟩

theorem orderly_urun {len : ProcessDataLength} {t : Sys} (h : t.Orderly) (evs : List UEv)
    (hc : NoCrash evs) : (t.urun len evs).Orderly := by
  induction evs generalizing t with
  | nil => exact h
  | cons e evs ih =>
    exact ih (h.ustep (hc e List.mem_cons_self)) fun x hx => hc x (List.mem_cons_of_mem _ hx)

/-- A power failure between two cycles. -/
theorem Kept.power {len : ProcessDataLength} {t : Sys} {lost : List (List Byte)} {sh : Option Nat}
    (h : Kept len t lost) (hp : t.pending = none) (a r : Fin 4) :
    Kept len ((⟨t, sh⟩ : PowerSys).step len (.power a r)).sys (lost ++
      if t.out.txCnt = (t.ack + 1) % 4 ∧ t.out.data ≠ [] then [t.out.data] else []) := by
  refine ⟨PowerSys.UInv.step (s := ⟨t, sh⟩) h.inv _ (fun _ _ _ => hp), ?_, ?_, ?_⟩
  · exact ⟨h.fits.queue, by simp [PowerSys.step, PowerSys.blank], by simp [PowerSys.step, hp]⟩
  · obtain ⟨l, m, g1, g2, g3⟩ := h.fates
    have hz : ((⟨t, sh⟩ : PowerSys).step len (.power a r)).sys.inFlight = [] := by
      simp [PowerSys.step, PowerSys.blank, Sys.inFlight, hp]
    rw [Sys.inFlight_pending_none hp] at g1
    unfold Sys.Fates
    rw [hz]
    by_cases hd : t.out.txCnt = (t.ack + 1) % 4 ∧ t.out.data ≠ []
    · rw [if_pos hd.1] at g1
      rw [if_pos hd]
      refine ⟨l ++ [(t.out.data, false)], m, ?_, ?_, ?_⟩
      · show t.written = _
        rw [g1, Pieces.all_append]
        simp [Pieces.all, PowerSys.step, Sys.queued]
      · show t.received = _
        rw [g2, Pieces.kept_append]
        simp [Pieces.kept]
      · rw [Pieces.gone_append]
        refine List.Perm.trans ?_ (g3.append_right _)
        rw [List.append_assoc, List.append_assoc]
        exact List.perm_append_comm.append_left _
    · rw [if_neg hd, List.append_nil]
      refine ⟨l, m, ?_, g2, g3⟩
      show t.written = _
      rw [g1]
      have : (if t.out.txCnt = (t.ack + 1) % 4 then t.out.data else []) = [] := by
        by_cases h1 : t.out.txCnt = (t.ack + 1) % 4
        · rw [if_pos h1]
          by_contra h2
          exact hd ⟨h1, h2⟩
        · rw [if_neg h1]
      rw [this]
      simp [PowerSys.step, Sys.queued]
  · intro seg hs
    rcases List.mem_append.1 hs with hs | hs
    · exact h.size seg hs
    · split at hs
      · rename_i hd
        cases List.mem_singleton.1 hs
        exact ⟨hd.2, h.fits.out⟩
      · cases hs

theorem orderly_power {len : ProcessDataLength} {t : Sys} {sh : Option Nat} (h : t.Orderly)
    (hp : t.pending = none) (a r : Fin 4) :
    ((⟨t, sh⟩ : PowerSys).step len (.power a r)).sys.Orderly := by
  obtain ⟨w, h⟩ := h
  refine ⟨({ t with out := PowerSys.blank, ack := a } : Sys).received ++
    ({ t with out := PowerSys.blank, ack := a } : Sys).inFlight ++
    ({ t with out := PowerSys.blank, ack := a } : Sys).queued, h.init, a.isLt, rfl, ?_, ?_⟩
  · simp [PowerSys.step, PowerSys.blank]
  · intro r hr
    simp [PowerSys.step, hp] at hr

namespace PowerNet

theorem unread_at {oc : Bool} {cfg : CouplerConfig} {w : Wiring} {s : Net} {j : Nat} {t : Sys}
    (h : Sending.QSim oc cfg j (w.wire j).len (w.wire j).oi (w.wire j).oo (s.at_ j) t) :
    s.unread w j =
      if t.out.txCnt = (t.ack + 1) % 4 ∧ t.out.data ≠ [] then [t.out.data] else [] := by
  have e2 := h.sim.out
  have e3 := h.sim.ack
  simp only [Plant.cleared, Net.at_] at e2 e3
  simp only [Net.unread, e2, e3]

theorem run_kept {oc : Bool} {cfg : CouplerConfig} {w : Wiring} {j : Nat} (hj : j ∈ w.modules)
    {c0 : Coupler} (h0 : Coupler.new cfg = .ok c0)
    (hs0 : SerialAt c0 j (w.wire j).len (w.wire j).oi (w.wire j).oo)
    (hd0 : BytesKept (infos c0) j) (s : PowerNet) {t : Sys}
    (h : Sending.QSim oc cfg j (w.wire j).len (w.wire j).oi (w.wire j).oo (s.net.at_ j) t)
    {lost : List (List Byte)} (hk : Kept (w.wire j).len t lost) (evs : List StationEv)
    (hb : s.BetweenCycles oc cfg w evs) :
    ∃ t', Sending.QSim oc cfg j (w.wire j).len (w.wire j).oi (w.wire j).oo
        ((s.run oc cfg w evs).net.at_ j) t' ∧
      Kept (w.wire j).len t' (lost ++ s.lostSegments oc cfg w j evs) ∧
      (t.Orderly → KeepsGoing evs → (s.lostSegments oc cfg w j evs).length ≤ lostOrFailedP evs) := by
  induction evs generalizing s t lost with
  | nil => exact ⟨t, h, by simpa [lostSegments] using hk, fun _ _ => by simp [lostSegments]⟩
  | cons e evs ih =>
    cases e with
    | ev e =>
      obtain ⟨tevs, g1, g2, g3, g4⟩ := Net.step_lost h0 hj hs0 hd0 hk.inv hk.fits h e
      obtain ⟨t', k1, k2, k3⟩ := ih (s.step oc cfg w (.ev e)) g1 (hk.urun tevs) hb.2
      refine ⟨t', k1, ?_, fun ho hc => ?_⟩
      · rw [g4, List.append_assoc] at k2
        exact k2
      · have hnc := g2 fun he => hc _ List.mem_cons_self (by rw [he])
        have k3 := k3 (orderly_urun ho tevs hnc) fun x hx => hc x (List.mem_cons_of_mem _ hx)
        have k4 := Sys.lostSegments_length (len := (w.wire j).len) ho tevs hnc
        rw [g4] at k4
        simp only [lostSegments, lostIn, List.length_append]
        cases e <;> simp only [lostOrFailedP, lostOrFailedN] at g3 ⊢ <;> omega
    | power a r =>
      have hp := sim_pending h hb.1
      obtain ⟨t', k1, k2, k3⟩ := ih (s.step oc cfg w (.power a r)) (sim_power none h a r)
        (hk.power (sh := none) hp (a j) (r j)) hb.2
      rw [← unread_at h] at k2
      refine ⟨t', k1, ?_, fun ho hc => ?_⟩
      · rw [List.append_assoc] at k2
        exact k2
      · have k3 := k3 (orderly_power ho hp _ _) fun x hx => hc x (List.mem_cons_of_mem _ hx)
        have k4 : (s.net.unread w j).length ≤ 1 := by
          rw [unread_at h]
          split <;> simp
        simp only [lostSegments, lostIn, List.length_append, lostOrFailedP]
        omega

end PowerNet

end Spec

/-- C143: with any number of serial devices behind a station that loses power any number of times
between cycles, whatever cycles fail, whatever images are lost and wherever the application crashes:
the bytes written to a module, or set on it and taken by a cycle, divide into pieces in this order.
Those that are kept are what the device has taken over, what is in flight and what is queued; those
that are not kept are the segments the schedule loses. Each of these fits into a frame, and without
crashes there are not more of them than lost images, failing cycles and power failures. -/
theorem C143_exact (oc : Bool) (cfg : CouplerConfig) (w : Wiring) (s : Net) (h : s.Initial cfg w)
    (evs : List StationEv) (hb : (⟨s, fun _ => none⟩ : PowerNet).BetweenCycles oc cfg w evs)
    (j : Nat) (hj : j ∈ w.modules) :
    let r := ((⟨s, fun _ => none⟩ : PowerNet).run oc cfg w evs).net
    let lost := (⟨s, fun _ => none⟩ : PowerNet).lostSegments oc cfg w j evs
    (∃ l : Pieces, l.all = (r.line j).written ∧
      l.kept = (r.line j).received ++ r.inFlight w j ++ r.queued j ∧ l.gone ~ lost) ∧
    (∀ seg ∈ lost, 1 ≤ seg.length ∧ seg.length ≤ capacity (w.wire j).len) ∧
    (KeepsGoing evs → lost.length ≤ lostOrFailedP evs) := by
  obtain ⟨t, h1, hq⟩ := PowerNet.initial_sim (oc := oc) h hj
  obtain ⟨t', g1, g2, g3⟩ := PowerNet.run_kept hj h.c (h.serial j hj) (h.disjoint j hj)
    ⟨s, fun _ => none⟩ hq (.initial h1) evs hb
  rw [List.nil_append] at g2
  simp only
  have hc : capacity (w.wire j).len = (w.wire j).len.userDataLen := by
    cases (w.wire j).len <;> rfl
  have e1 : (((⟨s, fun _ => none⟩ : PowerNet).run oc cfg w evs).net).queued j = _ :=
    g1.sim.same_queued
  have e2 : (((⟨s, fun _ => none⟩ : PowerNet).run oc cfg w evs).net).inFlight w j = _ :=
    g1.sim.same_inFlight
  have e3 : _ = ((((⟨s, fun _ => none⟩ : PowerNet).run oc cfg w evs).net).line j).received :=
    g1.sim.received
  have e4 : _ = ((((⟨s, fun _ => none⟩ : PowerNet).run oc cfg w evs).net).line j).written :=
    g1.sim.written
  rw [e1, e2, ← e3, ← e4, hc]
  exact ⟨g2.fates.pieces, fun seg hs => ⟨List.length_pos_of_ne_nil (g2.size seg hs).1,
    (g2.size seg hs).2⟩, g3 (.initial h1)⟩

/-- The power failure of the example loses the first six bytes. -/
example : (⟨exNet, fun _ => none⟩ : PowerNet).lostSegments true exDuo exWires 1 exPowerEvs =
    [[1#8, 2#8, 3#8, 4#8, 5#8, 6#8]] := by
  simp only [exPowerEvs, PowerNet.lostSegments, PowerNet.lostIn, Net.lostIn]
  decide +kernel

example := C143_exact true exDuo exWires exNet exNet_initial exPowerEvs (by
  simp only [exPowerEvs, PowerNet.BetweenCycles, true_and, and_true]
  decide +kernel) 1 (by decide)

end Ur20
