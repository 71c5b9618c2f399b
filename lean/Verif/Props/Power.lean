import Verif.Spec.Power
import Verif.Props.Unreliable

/-!
# Power failures of the station: C123
-/

namespace Ur20

open Spec Com
open scoped List

namespace Spec.PowerSys

/-! ### Transmit direction -/

theorem UInv.step {len : ProcessDataLength} {s : PowerSys} (h : s.sys.UInv) (e : PowerEv)
    (hp : ∀ a r, e = .power a r → s.sys.pending = none) : (s.step len e).sys.UInv := by
  cases e with
  | ev e => exact h.ustep e
  | power a r =>
    have hn := hp a r rfl
    refine ⟨h.init, a.isLt, ?_, ?_⟩
    · have hb := h.bytes
      simp only [Sys.inFlight, Sys.queued, PowerSys.step, hn, blank, ite_self, List.append_nil] at hb ⊢
      exact (List.Sublist.append (List.sublist_append_left _ _) (List.Sublist.refl _)).trans hb
    · intro x hx
      simp only [PowerSys.step, hn] at hx
      cases hx

theorem UInv.run {len : ProcessDataLength} {s : PowerSys} (h : s.sys.UInv) (evs : List PowerEv)
    (hb : s.BetweenCycles len evs) : (s.run len evs).sys.UInv := by
  induction evs generalizing s with
  | nil => exact h
  | cons e evs ih =>
    cases e with
    | ev e => exact ih (UInv.step h (.ev e) (by simp)) hb
    | power a r => exact ih (UInv.step h (.power a r) (fun _ _ _ => hb.1)) hb.2

/-! ### Receive direction: order -/

/-- What a cycle after the initialisation does to the receive side. -/
theorem start_rx {s : Sys} (nf rdy : Bool) (hi : s.p.initState = .done) :
    (s.p.next (s.input nf rdy) s.out).1.inData =
        (if s.avail = true ∧ s.p.lastRxCnt ≠ s.rxCnt then s.p.inData ++ s.rxData
          else s.p.inData) ∧
      (s.p.next (s.input nf rdy) s.out).1.lastRxCnt =
        (if s.avail = true then s.rxCnt else s.p.lastRxCnt) := by
  obtain ⟨f1, f2, f3, f4⟩ := nextTx_frame s.p (s.input nf rdy) s.out
  rw [next_done _ _ _ hi]
  by_cases hav : s.avail = true
  · by_cases hne : s.p.lastRxCnt = s.rxCnt
    · have hs := nextRx_skip (s.p.nextTx (s.input nf rdy) s.out).1 (s.input nf rdy)
        (.inr (by rw [f2]; exact hne))
      rw [hs]
      simp [f1, f2, hav, hne]
    · obtain ⟨g1, g2⟩ := nextRx_take (s.p.nextTx (s.input nf rdy) s.out).1 (s.input nf rdy)
        hav (by rw [f2]; exact hne)
      rw [g1, g2, f1, if_pos ⟨hav, hne⟩, if_pos hav]
      exact ⟨rfl, rfl⟩
  · have hav : s.avail = false := by simpa using hav
    have hs := nextRx_skip (s.p.nextTx (s.input nf rdy) s.out).1 (s.input nf rdy) (.inl hav)
    rw [hs]
    simp [f1, f2, hav]

/-- What holds of the receive direction whatever happens. -/
structure OrdInv (s : Sys) : Prop where
  init : s.p.initState = initStateOf s.cycles
  bytes : s.delivered ++ s.p.inData <+ s.seen
  early : s.cycles < 2 → s.fresh = true
  logged : s.fresh = false → s.p.lastRxCnt = s.rxCnt

theorem OrdInv.initial {len : ProcessDataLength} {s : Sys} (h : s.Initial len) : OrdInv s where
  init := by rw [h.p, h.cycles]; rfl
  bytes := by simp [h.logs, h.p, MessageProcessor.new]
  early := fun _ => h.logs.2.2.2.2
  logged := by simp [h.logs]

theorem OrdInv.ev {s : Sys} (h : OrdInv s) (e : Ev) : OrdInv (s.step e) := by
  cases e with
  | write b => exact ⟨h.init, h.bytes, h.early, h.logged⟩
  | read n =>
    simp only [Sys.step, read_ok]
    refine ⟨h.init, ?_, h.early, h.logged⟩
    simp only [List.append_assoc, List.take_append_drop]
    exact h.bytes
  | take =>
    simp only [Sys.step]
    split
    · exact ⟨h.init, h.bytes, h.early, h.logged⟩
    · exact h
  | restart n =>
    simp only [Sys.step]
    split
    · exact ⟨h.init, h.bytes, h.early, h.logged⟩
    · exact h
  | finish =>
    simp only [Sys.step]
    split
    · exact ⟨h.init, h.bytes, h.early, h.logged⟩
    · exact h
  | hide =>
    simp only [Sys.step]
    split
    · exact ⟨h.init, h.bytes, h.early, h.logged⟩
    · exact h
  | post seg =>
    simp only [Sys.step]
    split
    · exact ⟨h.init, h.bytes, fun _ => rfl, by simp⟩
    · exact h
  | start nf rdy =>
    simp only [Sys.step]
    split
    · exact h
    · have hi := h.init
      have hinit := next_initState s.p (s.input nf rdy) s.out _ hi
      match hc : s.cycles with
      | 0 =>
        rw [hc] at hi hinit
        have hf := h.early (by omega)
        rw [if_neg (by simp)]
        refine ⟨hinit, ?_, fun _ => hf, by simp [hf]⟩
        rw [next_clear _ _ _ hi]; exact h.bytes
      | 1 =>
        rw [hc] at hi hinit
        have hf := h.early (by omega)
        rw [if_neg (by simp)]
        refine ⟨hinit, ?_, fun _ => hf, by simp [hf]⟩
        rw [next_reset _ _ _ hi]; exact h.bytes
      | n + 2 =>
        rw [hc] at hi hinit
        obtain ⟨g1, g2⟩ := start_rx (s := s) nf rdy hi
        by_cases hav : s.avail = true
        · cases hf : s.fresh with
          | true =>
            rw [if_pos ⟨by omega, hav, rfl⟩]
            refine ⟨hinit, ?_, fun (hlt : n + 2 + 1 < 2) => by omega, ?_⟩
            · simp only [g1]
              split
              · rw [← List.append_assoc]
                exact h.bytes.append_right _
              · exact h.bytes.trans (List.sublist_append_left _ _)
            · intro _
              simp only [g2, hav, if_true]
          | false =>
            rw [if_neg (by simp)]
            have hl := h.logged hf
            refine ⟨hinit, ?_, fun (hlt : n + 2 + 1 < 2) => by omega, ?_⟩
            · simp only [g1, hl, ne_eq, not_true_eq_false, and_false, if_false]
              exact h.bytes
            · intro _
              simp only [g2, hav, if_true]
        · rw [if_neg (by simp [hav])]
          refine ⟨hinit, ?_, fun (hlt : n + 2 + 1 < 2) => by omega, ?_⟩
          · simp only [g1, hav]
            simpa using h.bytes
          · intro hf
            simp only [g2, hav]
            exact h.logged hf

theorem OrdInv.step {len : ProcessDataLength} {s : PowerSys} (h : OrdInv s.sys) (e : PowerEv) :
    OrdInv (s.step len e).sys := by
  cases e with
  | ev e =>
    cases e with
    | ev e => exact h.ev e
    | lost => exact ⟨h.init, h.bytes, h.early, h.logged⟩
    | crash =>
      refine ⟨rfl, ?_, fun _ => rfl, by simp [PowerSys.step, Sys.ustep]⟩
      exact (List.Sublist.append (List.Sublist.refl _) (List.nil_sublist _)).trans h.bytes
  | power a r => exact ⟨h.init, h.bytes, fun _ => rfl, by simp [PowerSys.step]⟩

theorem OrdInv.run {len : ProcessDataLength} {s : PowerSys} (h : OrdInv s.sys) (evs : List PowerEv) :
    OrdInv (s.run len evs).sys := by
  induction evs generalizing s with
  | nil => exact h
  | cons e evs ih => exact ih (OrdInv.step h e)

/-! ### Receive direction: completeness -/

/-- What holds of the receive direction as long as the numbers after a power failure are new. -/
structure RecInv (s : PowerSys) : Prop where
  init : s.sys.p.initState = initStateOf s.sys.cycles
  cnt : s.sys.rxCnt < 4
  bytes : s.sys.delivered ++ s.sys.p.inData = s.sys.seen
  early : s.sys.cycles < 2 → s.sys.fresh = true
  shown : 2 ≤ s.sys.cycles → s.sys.p.lastRxCnt = s.shown.getD 4
  none : s.sys.cycles < 2 → s.shown = none
  logged : s.sys.fresh = false → s.sys.p.lastRxCnt = s.sys.rxCnt
  unlogged : 2 ≤ s.sys.cycles → s.sys.fresh = true → s.sys.p.lastRxCnt = 4 ∨
    (s.sys.p.lastRxCnt ≠ s.sys.rxCnt ∧ s.sys.avail = true ∧
      s.sys.out.rxCntAck ≠ s.sys.rxCnt ∧
      ∀ r, s.sys.pending = some r → r.rxCntAck ≠ s.sys.rxCnt) ∨
    (s.sys.avail = false ∧ s.sys.p.lastRxCnt ≠ (s.sys.rxCnt + 1) % 4)
  pend : ∀ r, s.sys.pending = some r →
    r.rxCntAck = s.sys.rxCnt ∨
      (s.sys.out.rxCntAck ≠ s.sys.rxCnt ∧ r.rxCntAck ≠ s.sys.rxCnt)

theorem RecInv.initial {len : ProcessDataLength} {s : PowerSys} (h : s.sys.Initial len)
    (hs : s.shown = .none) : RecInv s where
  init := by rw [h.p, h.cycles]; rfl
  cnt := h.rxCnt
  bytes := by simp [h.logs, h.p, MessageProcessor.new]
  early := fun _ => h.logs.2.2.2.2
  shown := by simp [h.cycles]
  none := fun _ => hs
  logged := by simp [h.logs]
  unlogged := by simp [h.cycles]
  pend := by simp [h.pending]

theorem RecInv.start {s : PowerSys} (h : RecInv s) (nf rdy : Bool) :
    RecInv ⟨s.sys.step (.start nf rdy), s.note (.ev (.start nf rdy))⟩ := by
  obtain ⟨s, sh⟩ := s
  simp only [Sys.step, note]
  split
  · rename_i hp
    rw [if_neg (by cases hq : s.pending <;> simp_all)]
    exact h
  · rename_i hp
    have hp : s.pending = .none := by simpa using hp
    simp only [hp, true_and]
    have hi := h.init
    have hinit := next_initState s.p (s.input nf rdy) s.out _ hi
    have hpend : ∀ r, some (s.p.next (s.input nf rdy) s.out).2 = some r →
        r.rxCntAck = s.rxCnt ∨ (s.out.rxCntAck ≠ s.rxCnt ∧ r.rxCntAck ≠ s.rxCnt) := by
      intro r hr
      simp only [Option.some.injEq] at hr
      subst hr
      exact .inl rfl
    match hc : s.cycles with
    | 0 =>
      simp only at hi hinit
      rw [hc] at hi hinit
      have hf := h.early (by simp only; omega)
      have hn := h.none (by simp only; omega)
      simp only at hf hn
      rw [if_neg (by simp), if_neg (by simp)]
      refine ⟨hinit, h.cnt, ?_, fun _ => hf, by simp, fun _ => hn, by simp [hf], by simp, hpend⟩
      simp only
      rw [next_clear _ _ _ hi]; exact h.bytes
    | 1 =>
      simp only at hi hinit
      rw [hc] at hi hinit
      have hf := h.early (by simp only; omega)
      have hn := h.none (by simp only; omega)
      simp only at hf hn
      rw [if_neg (by simp), if_neg (by simp)]
      refine ⟨hinit, h.cnt, ?_, fun _ => hf, ?_, fun _ => hn, by simp [hf], ?_, hpend⟩
      · simp only
        rw [next_reset _ _ _ hi]; exact h.bytes
      · intro _
        simp only
        rw [next_reset _ _ _ hi, hn]; rfl
      · intro _ _
        simp only
        rw [next_reset _ _ _ hi]
        exact .inl rfl
    | n + 2 =>
      simp only at hi hinit
      rw [hc] at hi hinit
      obtain ⟨g1, g2⟩ := start_rx (s := s) nf rdy hi
      have hsh := h.shown (by simp only; omega)
      have hb := h.bytes
      have hun := h.unlogged (by simp only; omega)
      have hlo := h.logged
      have hc4 := h.cnt
      simp only at hsh hb hun hlo hc4
      by_cases hav : s.avail = true
      · have hnote : (if 2 ≤ n + 2 ∧ s.avail = true then some s.rxCnt else sh) = some s.rxCnt :=
          if_pos ⟨by omega, hav⟩
        rw [hnote]
        cases hf : s.fresh with
        | true =>
          rw [if_pos ⟨by omega, hav, rfl⟩]
          have hne : s.p.lastRxCnt ≠ s.rxCnt := by
            rcases hun hf with h1 | ⟨h1, -⟩ | ⟨h1, -⟩
            · omega
            · exact h1
            · simp [hav] at h1
          refine ⟨hinit, h.cnt, ?_, fun (hlt : n + 2 + 1 < 2) => by omega, ?_,
            fun (hlt : n + 2 + 1 < 2) => by omega, ?_, by simp, hpend⟩
          · simp only [g1]
            rw [if_pos ⟨hav, hne⟩, ← List.append_assoc, hb]
          · intro _
            simp only [g2, hav, if_true, Option.getD_some]
          · intro _
            simp only [g2, hav, if_true]
        | false =>
          rw [if_neg (by simp)]
          have hl := hlo hf
          refine ⟨hinit, h.cnt, ?_, fun (hlt : n + 2 + 1 < 2) => by omega, ?_,
            fun (hlt : n + 2 + 1 < 2) => by omega, ?_, ?_, hpend⟩
          · simp only [g1, hl, ne_eq, not_true_eq_false, and_false, if_false]
            exact hb
          · intro _
            simp only [g2, hav, if_true, Option.getD_some]
          · intro _
            simp only [g2, hav, if_true]
          · intro _ hf'
            simp only at hf'
            cases hf'
      · rw [if_neg (by simp [hav]), if_neg (by simp [hav])]
        refine ⟨hinit, h.cnt, ?_, fun (hlt : n + 2 + 1 < 2) => by omega, ?_,
          fun (hlt : n + 2 + 1 < 2) => by omega, ?_, ?_, hpend⟩
        · simp only [g1, hav]
          simpa using hb
        · intro _
          simp only [g2, hav]
          exact hsh
        · intro hf
          simp only [g2, hav]
          exact hlo hf
        · intro _ hf
          simp only [g2, hav]
          rcases hun hf with h1 | ⟨-, h1, -⟩ | ⟨h1, h2⟩
          · exact .inl h1
          · exact absurd h1 hav
          · exact .inr (.inr ⟨by simp, h2⟩)

theorem RecInv.ev {s : PowerSys} (h : RecInv s) (e : Ev) :
    RecInv ⟨s.sys.step e, s.note (.ev e)⟩ := by
  cases e with
  | start nf rdy => exact h.start nf rdy
  | write b => exact ⟨h.init, h.cnt, h.bytes, h.early, h.shown, h.none, h.logged, h.unlogged, h.pend⟩
  | read n =>
    simp only [Sys.step, read_ok]
    refine ⟨h.init, h.cnt, ?_, h.early, h.shown, h.none, h.logged, h.unlogged, h.pend⟩
    simp only [List.append_assoc, List.take_append_drop]
    exact h.bytes
  | take =>
    simp only [Sys.step]
    split
    · exact ⟨h.init, h.cnt, h.bytes, h.early, h.shown, h.none, h.logged, h.unlogged, h.pend⟩
    · exact h
  | restart n =>
    simp only [Sys.step]
    split
    · exact ⟨h.init, h.cnt, h.bytes, h.early, h.shown, h.none, h.logged, h.unlogged, h.pend⟩
    · exact h
  | finish =>
    simp only [Sys.step]
    split
    · rename_i r hr
      refine ⟨h.init, h.cnt, h.bytes, h.early, h.shown, h.none, h.logged, ?_, by simp⟩
      intro hc hf
      rcases h.unlogged hc hf with h1 | ⟨h1, h2, h3, h4⟩ | h1
      · exact .inl h1
      · exact .inr (.inl ⟨h1, h2, h4 r hr, by simp⟩)
      · exact .inr (.inr h1)
    · exact h
  | hide =>
    simp only [Sys.step]
    split
    · rename_i hg
      refine ⟨h.init, h.cnt, h.bytes, h.early, h.shown, h.none, h.logged, ?_, h.pend⟩
      intro hc hf
      rcases h.unlogged hc hf with h1 | ⟨-, -, h3, -⟩ | ⟨-, h2⟩
      · exact .inl h1
      · exact absurd hg h3
      · exact .inr (.inr ⟨rfl, h2⟩)
    · exact h
  | post seg =>
    simp only [Sys.step]
    split
    · rename_i hg
      have hc4 := h.cnt
      have hne : (s.sys.rxCnt + 1) % 4 ≠ s.sys.rxCnt := by omega
      have hpe : ∀ r, s.sys.pending = some r → r.rxCntAck = s.sys.rxCnt := by
        intro r hr
        rcases h.pend r hr with h1 | ⟨h1, -⟩
        · exact h1
        · exact absurd hg h1
      refine ⟨h.init, Nat.mod_lt _ (by omega), h.bytes, fun _ => rfl, h.shown, h.none, by simp,
        ?_, ?_⟩
      · intro hc _
        have key : s.sys.p.lastRxCnt = 4 ∨ s.sys.p.lastRxCnt ≠ (s.sys.rxCnt + 1) % 4 := by
          cases hf : s.sys.fresh with
          | true =>
            rcases h.unlogged hc hf with h1 | ⟨-, -, h3, -⟩ | ⟨-, h2⟩
            · exact .inl h1
            · exact absurd hg h3
            · exact .inr h2
          | false => rw [h.logged hf]; exact .inr hne.symm
        rcases key with h1 | h1
        · exact .inl h1
        · refine .inr (.inl ⟨h1, rfl, by simp only [hg]; exact hne.symm, ?_⟩)
          intro r hr
          simp only [hpe r hr]; exact hne.symm
      · intro r hr
        exact .inr ⟨by simp only [hg]; exact hne.symm, by simp only [hpe r hr]; exact hne.symm⟩
    · exact h

theorem RecInv.run {len : ProcessDataLength} {s : PowerSys} (h : RecInv s) (evs : List PowerEv)
    (hc : KeepsRunning evs) (hb : s.BetweenCycles len evs) (hn : s.NewNumbers len evs) :
    RecInv (s.run len evs) := by
  induction evs generalizing s with
  | nil => exact h
  | cons e evs ih =>
    have hc' : KeepsRunning evs := fun e he => hc e (List.mem_cons_of_mem _ he)
    cases e with
    | ev e =>
      refine ih (s := s.step len (.ev e)) ?_ hc' hb hn
      cases e with
      | ev e => exact h.ev e
      | crash => exact absurd rfl (hc (.ev .crash) (by simp))
      | lost =>
        refine ⟨h.init, h.cnt, h.bytes, h.early, h.shown, h.none, h.logged, ?_, by
          simp [PowerSys.step, Sys.ustep]⟩
        intro hc hf
        rcases h.unlogged hc hf with h1 | ⟨h1, h2, h3, h4⟩ | h1
        · exact .inl h1
        · exact .inr (.inl ⟨h1, h2, h3, by simp [PowerSys.step, Sys.ustep]⟩)
        · exact .inr (.inr h1)
    | power a r =>
      refine ih (s := s.step len (.power a r)) ?_ hc' hb.2 hn.2
      have hp := hb.1
      refine ⟨h.init, r.isLt, h.bytes, fun _ => rfl, h.shown, h.none, by simp [PowerSys.step], ?_, ?_⟩
      · intro h2 _
        have hs := h.shown h2
        have hne := hn.1
        cases hsh : s.shown with
        | none => rw [hsh] at hs; exact .inl hs
        | some n =>
          rw [hsh] at hs hne
          refine .inr (.inr ⟨rfl, ?_⟩)
          simp only [PowerSys.step]
          rw [hs]
          exact fun hh => hne (by rw [← hh]; rfl)
      · intro x hx
        simp only [PowerSys.step, hp] at hx
        cases hx

end Spec.PowerSys

open Spec.PowerSys

/-! ### C123 -/

/-- The full statement of C123: whatever power failures there are, the device takes over what was
written at most once and in order, and the application reads exactly what was presented. -/
def C123_statement : Prop :=
  ∀ (len : ProcessDataLength) (s : Sys), s.Initial len → ∀ evs : List PowerEv, KeepsRunning evs →
    let t := ((⟨s, none⟩ : PowerSys).run len evs).sys
    t.received <+ t.written ∧ t.delivered ++ t.p.inData = t.seen

/-- A power failure in the middle of a cycle: the returned image still carries the segment the
device had taken over before, and the device takes it again. -/
def exTwice : List PowerEv :=
  [.ev (.ev (.start false true)), .ev (.ev .finish), .ev (.ev (.start false true)),
   .ev (.ev .finish), .ev (.ev (.write [1#8])), .ev (.ev (.start false true)), .ev (.ev .finish),
   .ev (.ev .take), .ev (.ev (.start false true)), .power 0 0, .ev (.ev .finish), .ev (.ev .take)]

/-- A power failure after which the first segment has the number of the last one before: the
segment is acknowledged, but not stored. -/
def exDropped : List PowerEv :=
  [.ev (.ev (.start false true)), .ev (.ev .finish), .ev (.ev (.start false true)),
   .ev (.ev .finish), .ev (.ev (.post [1#8])), .ev (.ev (.start false true)), .ev (.ev .finish),
   .power 0 0, .ev (.ev (.post [2#8])), .ev (.ev (.start false true)), .ev (.ev .finish),
   .ev (.ev (.post [3#8])), .ev (.ev (.start false true)), .ev (.ev .finish), .ev (.ev (.read 9))]

theorem exTwice_received : ((⟨exSys, none⟩ : PowerSys).run .EightBytes exTwice).sys.received =
    [1#8, 1#8] ∧ ((⟨exSys, none⟩ : PowerSys).run .EightBytes exTwice).sys.written = [1#8] := by decide

theorem exDropped_read : ((⟨exSys, none⟩ : PowerSys).run .EightBytes exDropped).sys.delivered =
    [1#8, 3#8] ∧ ((⟨exSys, none⟩ : PowerSys).run .EightBytes exDropped).sys.seen =
    [1#8, 2#8, 3#8] := by decide

/-- C123 does not hold of the code. -/
theorem C123_statement_false : ¬ C123_statement := by
  intro h
  have := (h .EightBytes exSys exSys_ready exTwice (by
    intro e he; rintro rfl; simp [exTwice] at he)).1
  simp only [exTwice_received.1, exTwice_received.2] at this
  exact absurd this.length_le (by decide)

/-- Even if the power fails only between cycles, a segment presented can be lost. -/
theorem C123_receive_false : ¬ ∀ (len : ProcessDataLength) (s : Sys), s.Initial len →
    ∀ evs : List PowerEv, KeepsRunning evs → (⟨s, none⟩ : PowerSys).BetweenCycles len evs →
    let t := ((⟨s, none⟩ : PowerSys).run len evs).sys
    t.delivered ++ t.p.inData = t.seen := by
  intro h
  have := h .EightBytes exSys exSys_ready exDropped (by
    intro e he; rintro rfl; simp [exDropped] at he) (by
      simp only [exDropped, BetweenCycles, and_true]; rfl)
  revert this
  decide

/-- C123, transmit direction: if the power fails between cycles, no byte reaches the device twice or
out of order, and what is queued stays queued; whatever transfers are lost, and wherever the
application crashes as well. -/
theorem C123_transmit_partial {len : ProcessDataLength} {s : Sys} (h : s.Initial len)
    (evs : List PowerEv) (hb : (⟨s, none⟩ : PowerSys).BetweenCycles len evs) :
    let t := ((⟨s, none⟩ : PowerSys).run len evs).sys
    t.received ++ t.inFlight ++ t.queued <+ t.written :=
  (PowerSys.UInv.run (s := ⟨s, none⟩) (Sys.UInv.initial h) evs hb).bytes

/-- C123, transmit direction: a power failure between cycles loses nothing but the segment in
flight. -/
theorem C123_loss_partial (len : ProcessDataLength) (s : PowerSys) (hp : s.sys.pending = none)
    (a r : Fin 4) :
    let t := (s.step len (.power a r)).sys
    t.received = s.sys.received ∧ t.queued = s.sys.queued ∧ t.inFlight = [] := by
  simp only [PowerSys.step, Sys.queued, Sys.inFlight, hp, blank, ite_self, List.append_nil, and_self]

/-- C123, transmit direction: the transmission goes on: as many rounds as there are segments, and
one more, deliver what is in flight and queued. -/
theorem C123_recovers_partial {len : ProcessDataLength} {s : Sys} (h : s.Initial len)
    (evs : List PowerEv) (hb : (⟨s, none⟩ : PowerSys).BetweenCycles len evs)
    (hp : ((⟨s, none⟩ : PowerSys).run len evs).sys.pending = none)
    (hc : 2 ≤ ((⟨s, none⟩ : PowerSys).run len evs).sys.cycles) (k : Nat)
    (hk : 1 + ((⟨s, none⟩ : PowerSys).run len evs).sys.p.outData.length ≤ k) :
    let t := ((⟨s, none⟩ : PowerSys).run len evs).sys
    (rounds k t).received = t.received ++ t.inFlight ++ t.queued :=
  (PowerSys.UInv.run (s := ⟨s, none⟩) (Sys.UInv.initial h) evs hb).recovers hp hc k hk

/-- C123, receive direction: whatever happens, nothing presented is read twice or out of order. -/
theorem C123_receive_order {len : ProcessDataLength} {s : Sys} (h : s.Initial len)
    (evs : List PowerEv) :
    let t := ((⟨s, none⟩ : PowerSys).run len evs).sys
    t.delivered ++ t.p.inData <+ t.seen :=
  (PowerSys.OrdInv.run (s := ⟨s, none⟩) (OrdInv.initial h) evs).bytes

/-- C123, receive direction: if the power fails between cycles and the first segment afterwards has
another number than the last one shown before, everything presented is read exactly once. -/
theorem C123_receive_partial {len : ProcessDataLength} {s : Sys} (h : s.Initial len)
    (evs : List PowerEv) (hc : KeepsRunning evs) (hb : (⟨s, none⟩ : PowerSys).BetweenCycles len evs)
    (hn : (⟨s, none⟩ : PowerSys).NewNumbers len evs) :
    let t := ((⟨s, none⟩ : PowerSys).run len evs).sys
    t.delivered ++ t.p.inData = t.seen :=
  (PowerSys.RecInv.run (RecInv.initial (s := ⟨s, none⟩) h rfl) evs hc hb hn).bytes

/-- A schedule with two power failures between cycles and new numbers afterwards. -/
def exGentle : List PowerEv :=
  [.ev (.ev (.start false true)), .ev (.ev .finish), .ev (.ev (.start false true)),
   .ev (.ev .finish), .ev (.ev (.post [1#8])), .ev (.ev (.write [4#8])),
   .ev (.ev (.start false true)), .ev (.ev .finish),
   .power 2 1, .ev (.ev (.start false true)), .ev (.ev .finish), .ev (.ev (.post [2#8])),
   .ev (.ev (.write [5#8])), .ev (.ev (.start false true)), .ev (.ev .finish), .ev (.ev .take),
   .power 3 2, .ev (.ev (.start false true)), .ev (.ev .finish),
   .ev (.ev (.post [3#8])), .ev (.ev (.start false true)), .ev (.ev .finish), .ev (.ev (.read 9))]

example : KeepsRunning exGentle ∧ (⟨exSys, none⟩ : PowerSys).BetweenCycles .EightBytes exGentle ∧
    (⟨exSys, none⟩ : PowerSys).NewNumbers .EightBytes exGentle := by
  refine ⟨by intro e he; rintro rfl; simp [exGentle] at he, ?_, ?_⟩
  · simp only [exGentle, BetweenCycles, and_true]; exact ⟨rfl, rfl⟩
  · simp only [exGentle, NewNumbers, and_true]; decide

/-- The segment in flight at the first failure is lost, the other one arrives. -/
example : ((⟨exSys, none⟩ : PowerSys).run .EightBytes exGentle).sys.received = [5#8] ∧
    ((⟨exSys, none⟩ : PowerSys).run .EightBytes exGentle).sys.delivered = [1#8, 2#8, 3#8] := by decide

end Ur20
