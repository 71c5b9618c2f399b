import Verif.Props.Sending

/-! # Receiving with crashes: C93 -/

namespace Ur20

open Spec Com Coupler
open scoped List

/-- C93: whatever cycles fail, whatever images are lost and wherever the application crashes, what is
read and what is buffered are bytes the device has shown to a cycle of an initialised module, each
at most once per presentation and in order. A segment that is still presented after a restart counts
as presented again. -/
theorem C93_order (oc : Bool) (cfg : CouplerConfig) (j : Nat)
    (len : ProcessDataLength) (oi oo : Word) (s : Plant) (h : s.Initial cfg j len oi oo)
    (evs : List SPEv) :
    let r := (Sending.run oc cfg j len oi oo ⟨s, none⟩ evs).plant
    r.delivered ++ r.buffered j <+ r.seen := by
  obtain ⟨t, tevs, h1, h2, -, -⟩ := Sending.initial_run (oc := oc) h evs
  obtain ⟨d0, n0, d, n, k1, k2, k3, k4⟩ := (Sys.RxSince.initial h1).urun (len := len) tevs
  have e1 := h2.sim.proc
  have e2 := h2.sim.delivered
  have e3 := h2.sim.seen
  simp only [Plant.cleared] at e1 e2 e3
  simp only
  unfold Plant.buffered
  rw [e1, ← e2, ← e3, k1, k2, List.append_assoc]
  refine k3.append ?_
  have := k4.bytes
  simp only [Sys.relog] at this
  rw [this]

/-- C93: since the last restart nothing is lost: what has been read since and what is buffered are
exactly what the device has shown since. -/
theorem C93_since_restart (oc : Bool) (cfg : CouplerConfig) (j : Nat)
    (len : ProcessDataLength) (oi oo : Word) (s : Plant) (h : s.Initial cfg j len oi oo)
    (evs evs' : List SPEv) (hc : NoCrashesS evs') :
    let a := (Sending.run oc cfg j len oi oo ⟨s, none⟩ (evs ++ [.ev .crash])).plant
    let r := (Sending.run oc cfg j len oi oo ⟨s, none⟩ (evs ++ [.ev .crash] ++ evs')).plant
    ∃ read shown, r.delivered = a.delivered ++ read ∧ r.seen = a.seen ++ shown ∧
      read ++ r.buffered j = shown := by
  obtain ⟨t, tevs, h1, h2, -, -⟩ := Sending.initial_run (oc := oc) h evs
  have hc1 := h2.crash h.c h.serial h.disjoint
  have hrx : (t.urun len tevs).rxCnt < 4 := by
    obtain ⟨d0, n0, d, n, -, -, -, k4⟩ := (Sys.RxSince.initial h1).urun (len := len) tevs
    exact k4.cnt
  obtain ⟨tevs', h3, h4, -⟩ := hc1.run h.c h.serial h.disjoint evs'
  have h5 := Sys.RxInv.crashed (len := len) hrx
  have ea : Sending.run oc cfg j len oi oo ⟨s, none⟩ (evs ++ [.ev .crash]) =
      (Sending.run oc cfg j len oi oo ⟨s, none⟩ evs).step oc cfg j len oi oo (.ev .crash) := by
    simp [Sending.run, List.foldl_append]
  have er : Sending.run oc cfg j len oi oo ⟨s, none⟩ (evs ++ [.ev .crash] ++ evs') =
      ((Sending.run oc cfg j len oi oo ⟨s, none⟩ evs).step oc cfg j len oi oo (.ev .crash)).run
        oc cfg j len oi oo evs' := by
    simp [Sending.run, List.foldl_append]
  simp only
  rw [ea, er]
  generalize (t.urun len tevs).ustep len .crash = u at hc1 h3 h5
  obtain ⟨d', n', k1, k2, k3⟩ := Sys.relog_urun (len := len) u tevs'
  have k3 := k3 [] []
  have hinv : ∀ (es : List UEv) (v : Sys), NoCrash es → v.RxInv → (v.urun len es).RxInv := by
    intro es
    induction es with
    | nil => exact fun v _ h => h
    | cons e es ih =>
      intro v hn hv
      refine ih _ (fun x hx => hn x (List.mem_cons_of_mem _ hx)) ?_
      cases e with
      | ev e => exact hv.step e
      | lost => exact hv.lost
      | crash => exact absurd rfl (hn _ List.mem_cons_self)
  have h6 := (hinv tevs' _ (h4 hc) h5).bytes
  rw [k3] at h6
  simp only [Sys.relog, List.nil_append] at h6
  have e1 := h3.sim.proc
  have e2 := h3.sim.delivered
  have e3 := h3.sim.seen
  have e4 := hc1.sim.delivered
  have e5 := hc1.sim.seen
  simp only [Plant.cleared] at e1 e2 e3 e4 e5
  refine ⟨d', n', ?_, ?_, ?_⟩
  · rw [← e2, ← e4, k1]
  · rw [← e3, ← e5, k2]
  · unfold Plant.buffered
    rw [e1]
    exact h6

def exSegment : List Word := [0#16, 0x0109#16, 0x0041#16, 0#16, 0#16]

/-- A byte is shown and the application crashes before reading it; the device still presents it to
the restarted application, which reads it. -/
def exRestarted : List SPEv :=
  [PEv.start exPi, .finish, .start exPi, .finish, .post [0x41#8], .start exSegment, .finish].map
    (.ev ∘ .ev)

def exAgain : List SPEv :=
  [PEv.start exSegment, .finish, .start exSegment, .finish, .start exSegment, .finish, .read 5].map
    (.ev ∘ .ev)

example : NoCrashesS exAgain := by
  intro e he
  simp only [exAgain, List.mem_map] at he
  obtain ⟨x, -, rfl⟩ := he
  simp

/-- Shown before and after the restart; the first time it was buffered and lost. -/
example :
    let r := (Sending.run true exCfg 3 .EightBytes 0x0010#16 0x8010#16 ⟨exPlant, none⟩
      (exRestarted ++ [.ev .crash] ++ exAgain)).plant
    r.seen = [0x41#8, 0x41#8] ∧ r.delivered = [0x41#8] ∧ r.buffered 3 = [] := by
  simp only [exRestarted, exAgain, Sending.run, List.map, List.cons_append, List.nil_append,
    List.foldl, Function.comp]
  decide +kernel

end Ur20
