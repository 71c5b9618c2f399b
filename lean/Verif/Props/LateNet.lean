import Verif.Props.LateRestart
import Verif.Props.Network
import Verif.Spec.LateNet

/-!
# C148: any number of serial devices with late and lost images
-/

namespace Ur20

open Spec Com Coupler
open scoped List

namespace Spec.LateNet

/-- What concerns module `j` only. -/
def at_ (s : LateNet) (j : Nat) : LatePlant where
  c := s.c
  kept := s.kept
  inp := s.inp
  ins := s.ins
  outs := s.outs
  out := s.out
  ack := (s.line j).ack
  rxCnt := (s.line j).rxCnt
  avail := (s.line j).avail
  cycles := s.cycles
  written := (s.line j).written
  received := (s.line j).received
  shown := (s.line j).shown
  early := (s.line j).early
  delivered := (s.line j).delivered

theorem started_at {cfg : CouplerConfig} {w : Wiring} {s : LateNet} (h : s.Started cfg w) {j : Nat}
    (hj : j ∈ w.modules) :
    (s.at_ j).Started cfg j (w.wire j).len (w.wire j).oi (w.wire j).oo := by
  obtain ⟨d1, d2, d3⟩ := h.devices j hj
  obtain ⟨l1, l2, l3⟩ := h.logs j hj
  exact ⟨h.c, h.serial j hj, h.kept_bytes j hj, h.kept, h.out j hj, h.inp j hj, h.ins, h.outs, d1, d2, d3,
    h.cycles, l1, l2, l3⟩

/-- Every step is a step, or none, of what concerns one module. -/
theorem step_at {oc : Bool} {w : Wiring} {j : Nat} (hj : j ∈ w.modules) (s : LateNet) (e : LateNetEv) :
    (s.step oc w e).at_ j = s.at_ j ∨
    ∃ e', (s.step oc w e).at_ j =
        (s.at_ j).step oc j (w.wire j).len (w.wire j).oi (w.wire j).oo e' ∧
      ∀ pi po, e' = .failing pi po → e = .failing pi po := by
  cases e with
  | write i buf =>
    simp only [step]
    split
    · right
      by_cases h : i = j
      · subst h
        exact ⟨.write buf, by simp [at_, setLine, LatePlant.step], by simp⟩
      · refine ⟨.other (.write i buf), ?_, by simp⟩
        have he : (COp.write i buf).Elsewhere j := h
        simp [at_, setLine, LatePlant.step, he, Ne.symm h, COp.apply]
    · exact .inl rfl
  | read i n =>
    simp only [step]
    split
    · by_cases h : i = j
      · subst h
        split
        · rename_i c' bytes hr
          right
          refine ⟨.read n, ?_, by simp⟩
          simp [at_, setLine, LatePlant.step, hr]
        · exact .inl rfl
      · right
        refine ⟨.other (.read i n), ?_, by simp⟩
        have he : (COp.read i n).Elsewhere j := h
        simp only [LatePlant.step, if_pos he]
        simp only [at_, Net.read_apply]
        cases hr : s.c.read i n with
        | ok r =>
          obtain ⟨c', b⟩ := r
          cases b <;> simp [setLine, Ne.symm h]
        | err => rfl
        | panic => rfl
    · exact .inl rfl
  | other op =>
    simp only [step]
    split
    · rename_i h
      right
      refine ⟨.other op, ?_, by simp⟩
      simp only [LatePlant.step, if_pos (h j hj)]
      rfl
    · exact .inl rfl
  | sample pi =>
    simp only [step]
    split
    · rename_i h
      obtain ⟨f, hf, hp⟩ := h j hj
      right
      refine ⟨.sample pi, ?_, by simp⟩
      have hp' : (s.at_ j).Presents f := hp
      simp only [LatePlant.step, hf, if_pos hp']
      rfl
    · exact .inl rfl
  | arrive =>
    right
    refine ⟨.arrive, ?_, by simp⟩
    simp only [step, LatePlant.step, at_]
    cases h : s.ins <;> simp [h]
  | loseIn n => exact .inr ⟨.loseIn n, rfl, by simp⟩
  | cycle =>
    right
    refine ⟨.cycle, ?_, by simp⟩
    simp only [step, LatePlant.step, at_]
    rcases h : s.c.next oc s.inp s.kept with ⟨c', r⟩
    cases r <;> rfl
  | failing pi po =>
    right
    refine ⟨.failing pi po, ?_, by simp⟩
    simp only [step, LatePlant.step, at_]
    rcases h : s.c.next oc pi po with ⟨c', r⟩
    cases r <;> rfl
  | again => exact .inr ⟨.again, rfl, by simp⟩
  | deliver =>
    right
    refine ⟨.deliver, ?_, by simp⟩
    simp only [step, LatePlant.step, at_]
    cases h : s.outs <;> simp [h]
  | loseOut n => exact .inr ⟨.loseOut n, rfl, by simp⟩
  | take i =>
    simp only [step]
    split
    · by_cases h : i = j
      · subst h
        right
        refine ⟨.take, ?_, by simp⟩
        simp only [at_, LatePlant.step]
        cases outFrame (w.wire i).len (w.wire i).oo s.out with
        | none => rfl
        | some f => by_cases hc : f.txCnt = ((s.line i).ack + 1) % 4 <;> simp [hc, setLine]
      · left
        split
        · split
          · simp [at_, setLine, Ne.symm h]
          · rfl
        · rfl
    · exact .inl rfl
  | post i seg =>
    simp only [step]
    split
    · by_cases h : i = j
      · subst h
        right
        refine ⟨.post seg, ?_, by simp⟩
        simp only [at_, LatePlant.step]
        cases outFrame (w.wire i).len (w.wire i).oo s.out with
        | none => rfl
        | some f => by_cases hc : f.rxCntAck = (s.line i).rxCnt <;> simp [hc, setLine]
      · left
        split
        · split
          · simp [at_, setLine, Ne.symm h]
          · rfl
        · rfl
    · exact .inl rfl
  | hide i =>
    simp only [step]
    split
    · by_cases h : i = j
      · subst h
        right
        refine ⟨.hide, ?_, by simp⟩
        simp only [at_, LatePlant.step]
        cases outFrame (w.wire i).len (w.wire i).oo s.out with
        | none => rfl
        | some f => by_cases hc : f.rxCntAck = (s.line i).rxCnt <;> simp [hc, setLine]
      · left
        split
        · split
          · simp [at_, setLine, Ne.symm h]
          · rfl
        · rfl
    · exact .inl rfl

/-- Every schedule is a schedule of what concerns one module. -/
theorem run_at {oc : Bool} {cfg : CouplerConfig} {w : Wiring} {j : Nat} (hj : j ∈ w.modules)
    (s : LateNet) (evs : List LateNetEv) :
    ∃ evs', (s.run oc w evs).at_ j =
        (s.at_ j).run oc j (w.wire j).len (w.wire j).oi (w.wire j).oo evs' ∧
      (OnlyUndecodable oc cfg evs → LatePlant.OnlyUndecodable oc cfg evs') := by
  induction evs generalizing s with
  | nil => exact ⟨[], rfl, fun _ pi po h => by simp at h⟩
  | cons e evs ih =>
    obtain ⟨evs', h1, h2⟩ := ih (s.step oc w e)
    rcases step_at (oc := oc) hj s e with h | ⟨e', h, hf⟩
    · rw [h] at h1
      exact ⟨evs', h1, fun hu => h2 fun pi po hm => hu pi po (List.mem_cons_of_mem _ hm)⟩
    · rw [h] at h1
      refine ⟨e' :: evs', h1, fun hu pi po hm => ?_⟩
      rcases List.mem_cons.1 hm with hm | hm
      · exact hu pi po (by rw [hf pi po hm.symm]; exact List.mem_cons_self)
      · exact h2 (fun pi po hm => hu pi po (List.mem_cons_of_mem _ hm)) pi po hm

/-! ### Rounds -/

theorem take_at {oc : Bool} {w : Wiring} {j : Nat} (hj : j ∈ w.modules) (s : LateNet) :
    (s.step oc w (.take j)).at_ j =
      (s.at_ j).step oc j (w.wire j).len (w.wire j).oi (w.wire j).oo .take := by
  simp only [step, if_pos hj, at_, LatePlant.step]
  cases outFrame (w.wire j).len (w.wire j).oo s.out with
  | none => rfl
  | some f => by_cases hc : f.txCnt = ((s.line j).ack + 1) % 4 <;> simp [hc, setLine]

theorem take_ne {oc : Bool} {w : Wiring} {i j : Nat} (h : i ≠ j) (s : LateNet) :
    (s.step oc w (.take i)).at_ j = s.at_ j := by
  simp only [step]
  split
  · split
    · split
      · simp [at_, setLine, Ne.symm h]
      · rfl
    · rfl
  · rfl

theorem takes_at {oc : Bool} {w : Wiring} {j : Nat} (hj : j ∈ w.modules)
    (js : List Nat) (hn : js.Nodup) (s : LateNet) :
    (s.run oc w (js.map .take)).at_ j =
      if j ∈ js then (s.at_ j).step oc j (w.wire j).len (w.wire j).oi (w.wire j).oo .take
      else s.at_ j := by
  induction js generalizing s with
  | nil => rfl
  | cons i js ih =>
    obtain ⟨hi, hn⟩ := List.nodup_cons.1 hn
    have h1 := ih hn (s.step oc w (.take i))
    have h2 : s.run oc w ((i :: js).map .take) =
      (s.step oc w (.take i)).run oc w (js.map .take) := rfl
    rw [h2, h1]
    by_cases h : i = j
    · subst h
      rw [if_neg hi, take_at hj, if_pos List.mem_cons_self]
    · rw [take_ne h]
      by_cases hm : j ∈ js
      · rw [if_pos hm, if_pos (List.mem_cons_of_mem _ hm)]
      · rw [if_neg hm, if_neg (by simp [hm, Ne.symm h])]

theorem cycle_at {oc : Bool} {w : Wiring} (j : Nat) (s : LateNet) :
    (s.step oc w .cycle).at_ j =
      (s.at_ j).step oc j (w.wire j).len (w.wire j).oi (w.wire j).oo .cycle := by
  simp only [step, LatePlant.step, at_]
  rcases h : s.c.next oc s.inp s.kept with ⟨c', r⟩
  cases r <;> rfl

theorem arrive_at {oc : Bool} {w : Wiring} (j : Nat) (s : LateNet) :
    (s.step oc w .arrive).at_ j =
      (s.at_ j).step oc j (w.wire j).len (w.wire j).oi (w.wire j).oo .arrive := by
  simp only [step, LatePlant.step, at_]
  cases h : s.ins <;> simp [h]

theorem deliver_at {oc : Bool} {w : Wiring} (j : Nat) (s : LateNet) :
    (s.step oc w .deliver).at_ j =
      (s.at_ j).step oc j (w.wire j).len (w.wire j).oi (w.wire j).oo .deliver := by
  simp only [step, LatePlant.step, at_]
  cases h : s.outs <;> simp [h]

theorem sample_at {oc : Bool} {w : Wiring} {j : Nat} (hj : j ∈ w.modules) (s : LateNet)
    {pi : List Word} (hs : s.Shows w pi) :
    (s.step oc w (.sample pi)).at_ j =
      (s.at_ j).step oc j (w.wire j).len (w.wire j).oi (w.wire j).oo (.sample pi) := by
  obtain ⟨f, hf, hp⟩ := hs j hj
  have hp' : (s.at_ j).Presents f := hp
  simp only [step, LatePlant.step, hf, if_pos hp', if_pos hs]
  rfl

theorem round_at {oc : Bool} {w : Wiring} (hw : w.modules.Nodup) {j : Nat} (hj : j ∈ w.modules)
    (s : LateNet) {pi : List Word} (hs : s.Shows w pi) :
    (s.round oc w pi).at_ j =
      (s.at_ j).rounds oc j (w.wire j).len (w.wire j).oi (w.wire j).oo [pi] := by
  have hr : s.round oc w pi = ((((s.step oc w (.sample pi)).step oc w .arrive).step oc w .cycle).step oc w
      .deliver).run oc w (w.modules.map .take) := by
    simp [round, run]
  rw [hr, takes_at hj _ hw, if_pos hj, deliver_at, cycle_at, arrive_at, sample_at hj s hs]
  rfl

/-! ### What holds of the application at any time -/

/-- The coupler is one that calls and cycles lead to, what is to be written is accepted, and the image
of the last cycle is complete. -/
structure Fit (oc : Bool) (cfg : CouplerConfig) (s : LateNet) : Prop where
  reach : ReachableFrom oc cfg s.c
  pending : PendingAccepted cfg s.c
  kept : OutputsReady cfg s.kept

theorem fit_apply {oc : Bool} {cfg : CouplerConfig} {c : Coupler} (hr : ReachableFrom oc cfg c)
    (op : COp) : ReachableFrom oc cfg (op.apply oc c) := by
  obtain ⟨c0, ops, h0, rfl⟩ := hr
  exact ⟨c0, ops ++ [op], h0, by simp [runC, List.foldl_append]⟩

theorem Fit.next {oc : Bool} {cfg : CouplerConfig} {s : LateNet} (h : s.Fit oc cfg) {pi po : List Word}
    {c' : Coupler} {r : Res (List Word)} (hn : s.c.next oc pi po = (c', r)) :
    ReachableFrom oc cfg c' ∧ PendingAccepted cfg c' := by
  have h1 := fit_apply h.reach (.next pi po)
  have h2 := Plant.pending_call (oc := oc) (op := .next pi po) h.pending (fun _ _ h => by cases h)
  simp only [COp.apply, hn] at h1 h2
  exact ⟨h1, h2⟩

theorem Fit.step {oc : Bool} {cfg : CouplerConfig} {w : Wiring} {s : LateNet} (h : s.Fit oc cfg)
    (e : LateNetEv) (he : ∀ a v, e = .other (.setOutput a v) →
      ∀ t, cfg.modules[a.module]? = some t → Accepts t v) : (s.step oc w e).Fit oc cfg := by
  obtain ⟨h1, h2, h3⟩ := id h
  cases e with
  | write i buf =>
    simp only [LateNet.step]
    split
    · exact ⟨fit_apply h1 (.write i buf), Plant.pending_call (oc := oc) (op := .write i buf) h2
        (fun _ _ h => by cases h), h3⟩
    · exact h
  | read i n =>
    simp only [LateNet.step]
    split
    · split
      · rename_i c' bytes hr
        have g1 := fit_apply h1 (.read i n)
        have g2 := Plant.pending_call (oc := oc) (op := .read i n) h2 (fun _ _ h => by cases h)
        simp only [Net.read_apply, hr] at g1 g2
        exact ⟨g1, g2, h3⟩
      · exact h
    · exact h
  | other op =>
    simp only [LateNet.step]
    split
    · exact ⟨fit_apply h1 op, Plant.pending_call h2 (fun a v hop => he a v (by rw [hop])), h3⟩
    · exact h
  | cycle =>
    simp only [LateNet.step]
    split
    · rename_i c' img hn
      obtain ⟨g1, g2⟩ := h.next hn
      obtain ⟨hcom, henc⟩ := C69_needed oc cfg s.c h1 s.inp s.kept img c' hn
      exact ⟨g1, g2, outputs_returned h1 h3 hcom henc hn⟩
    · exact h
  | failing pi po =>
    simp only [LateNet.step]
    split
    · rename_i c' e hn
      obtain ⟨g1, g2⟩ := h.next hn
      exact ⟨g1, g2, h3⟩
    · exact h
  | sample pi => simp only [LateNet.step]; split <;> exact ⟨h1, h2, h3⟩
  | arrive => simp only [LateNet.step]; split <;> exact ⟨h1, h2, h3⟩
  | deliver => simp only [LateNet.step]; split <;> exact ⟨h1, h2, h3⟩
  | loseIn n => exact ⟨h1, h2, h3⟩
  | again => exact ⟨h1, h2, h3⟩
  | loseOut n => exact ⟨h1, h2, h3⟩
  | take i => simp only [LateNet.step]; repeat' split
              all_goals exact ⟨h1, h2, h3⟩
  | post i seg => simp only [LateNet.step]; repeat' split
                  all_goals exact ⟨h1, h2, h3⟩
  | hide i => simp only [LateNet.step]; repeat' split
              all_goals exact ⟨h1, h2, h3⟩

theorem Fit.run {oc : Bool} {cfg : CouplerConfig} {w : Wiring} {s : LateNet} (h : s.Fit oc cfg)
    (evs : List LateNetEv) (he : AcceptedValues cfg evs) : (s.run oc w evs).Fit oc cfg := by
  induction evs generalizing s with
  | nil => exact h
  | cons e evs ih =>
    exact ih (h.step e fun a v ha => he a v (by rw [ha]; exact List.mem_cons_self))
      fun a v ha => he a v (List.mem_cons_of_mem _ ha)

theorem Fit.succeeds {oc : Bool} {cfg : CouplerConfig} {s : LateNet} (h : s.Fit oc cfg) {pi : List Word}
    (hi : InputsReady cfg pi) : ∃ img, (s.c.next oc pi s.kept).2 = .ok img := by
  obtain ⟨c', img, hn, -⟩ := C68_success oc cfg _ h.reach pi s.kept ⟨hi, h.kept.registers⟩
    ⟨fun j t par o i ch v hcfg _ hw => h.pending _ _ _ hw hcfg.1,
      fun j t par o i ch us hcfg hno ht hch _ => h.kept.preset j t par o i ch us hcfg hno ht hch⟩
  exact ⟨img, by rw [hn]⟩

theorem Started.fit {oc : Bool} {cfg : CouplerConfig} {w : Wiring} {s : LateNet} (h : s.Started cfg w)
    (ho : OutputsReady cfg s.out) : s.Fit oc cfg := by
  refine ⟨⟨s.c, [], h.c, rfl⟩, ?_, by rw [h.kept]; exact ho⟩
  intro a v t hw
  rw [((C13_success cfg).2 s.c h.c).2.2.2.2.2 a] at hw
  cases hw

theorem Fit.round {oc : Bool} {cfg : CouplerConfig} {w : Wiring} {s : LateNet} (h : s.Fit oc cfg)
    (pi : List Word) : (s.round oc w pi).Fit oc cfg := by
  refine h.run _ fun a v ha => ?_
  simp at ha

theorem rounds_at {oc : Bool} {cfg : CouplerConfig} {w : Wiring} (hw : w.modules.Nodup) {j : Nat}
    (hj : j ∈ w.modules) (s : LateNet) (hF : s.Fit oc cfg) (pis : List (List Word))
    (hg : s.GoodInputs oc cfg w pis) :
    LatePlant.GoodRounds oc j (w.wire j).len (w.wire j).oi (w.wire j).oo (s.at_ j) pis ∧
    (s.rounds oc w pis).at_ j =
      (s.at_ j).rounds oc j (w.wire j).len (w.wire j).oi (w.wire j).oo pis := by
  induction pis generalizing s with
  | nil => exact ⟨trivial, rfl⟩
  | cons pi pis ih =>
    obtain ⟨g1, g2, g3⟩ := hg
    have hr := round_at (oc := oc) hw hj s g2
    obtain ⟨k1, k2⟩ := ih _ (hF.round pi) g3
    rw [hr] at k1 k2
    refine ⟨⟨g2 j hj, hF.succeeds g1, k1⟩, ?_⟩
    have h3 : s.rounds oc w (pi :: pis) = (s.round oc w pi).rounds oc w pis := rfl
    rw [h3, k2]
    simp [LatePlant.rounds, LatePlant.run]

theorem takes_cycles {oc : Bool} {w : Wiring} (js : List Nat) (s : LateNet) :
    (s.run oc w (js.map .take)).cycles = s.cycles ∧ (s.run oc w (js.map .take)).ins = s.ins := by
  induction js generalizing s with
  | nil => exact ⟨rfl, rfl⟩
  | cons i js ih =>
    have h1 : (s.step oc w (.take i)).cycles = s.cycles ∧ (s.step oc w (.take i)).ins = s.ins := by
      simp only [LateNet.step]
      repeat' split
      all_goals exact ⟨rfl, rfl⟩
    obtain ⟨h2, h3⟩ := ih (s.step oc w (.take i))
    exact ⟨h2.trans h1.1, h3.trans h1.2⟩

/-- The cycles of rounds succeed. -/
theorem rounds_cycles {oc : Bool} {cfg : CouplerConfig} {w : Wiring} (s : LateNet) (hF : s.Fit oc cfg)
    (hi : s.ins = []) (pis : List (List Word)) (hg : s.GoodInputs oc cfg w pis) :
    (s.rounds oc w pis).cycles = s.cycles + pis.length := by
  induction pis generalizing s with
  | nil => rfl
  | cons pi pis ih =>
    obtain ⟨g1, g2, g3⟩ := hg
    have h3 : s.rounds oc w (pi :: pis) = (s.round oc w pi).rounds oc w pis := rfl
    have hr : s.round oc w pi = ((((s.step oc w (.sample pi)).step oc w .arrive).step oc w .cycle).step oc
        w .deliver).run oc w (w.modules.map .take) := by
      simp [LateNet.round, LateNet.run]
    obtain ⟨img, hn⟩ := hF.succeeds g1
    rcases hx : s.c.next oc pi s.kept with ⟨c', r⟩
    rw [hx] at hn
    subst hn
    have hc : (s.round oc w pi).cycles = s.cycles + 1 ∧ (s.round oc w pi).ins = [] := by
      obtain ⟨t1, t2⟩ := takes_cycles (oc := oc) (w := w) w.modules
        ((((s.step oc w (.sample pi)).step oc w .arrive).step oc w .cycle).step oc w .deliver)
      rw [hr, t1, t2]
      have e1 : s.step oc w (.sample pi) = { s with ins := [pi] } := by
        simp [LateNet.step, g2, hi]
      rw [e1]
      simp only [LateNet.step, hx]
      cases hos : s.outs <;> simp
    rw [h3, ih _ (hF.round pi) hc.2 g3, hc.1, List.length_cons]
    omega

theorem restart_at (c : Coupler) (pi : List Word) (s : LateNet) (j : Nat) :
    (s.restart c pi).at_ j = (s.at_ j).restart c pi := rfl

end Spec.LateNet

/-! ### C148 -/

/-- C148: also with any number of devices, however late the images are and whichever get lost, every
device takes over what was written to its own module, completely, once and in order, possibly after the
segment that was waiting for it at the start. -/
theorem C148_sent (oc : Bool) (cfg : CouplerConfig) (w : Wiring) (s : LateNet) (h : s.Started cfg w)
    (evs : List LateNetEv) (hu : LateNet.OnlyUndecodable oc cfg evs) (j : Nat) (hj : j ∈ w.modules) :
    let r := s.run oc w evs
    ∃ old, (old = [] ∨ old = s.waiting w j) ∧
      (r.line j).received ++ r.inFlight w j ++ r.queued j = old ++ (r.line j).written := by
  obtain ⟨evs', h1, h2⟩ := LateNet.run_at (oc := oc) (cfg := cfg) hj s evs
  have := C133_coupler_sent oc cfg j _ _ _ _ (LateNet.started_at h hj) evs' (h2 hu)
  rw [← h1] at this
  exact this

/-- C148, receiving: what is read from a module comes from its own device: the segments it has shown,
completely, once and in order, except those it showed before the end of the initialisation and the one
that may not have arrived. -/
theorem C148_received (oc : Bool) (cfg : CouplerConfig) (w : Wiring) (s : LateNet) (h : s.Started cfg w)
    (evs : List LateNetEv) (hu : LateNet.OnlyUndecodable oc cfg evs)
    (hc : 2 ≤ (s.run oc w evs).cycles) (j : Nat) (hj : j ∈ w.modules) :
    let r := s.run oc w evs
    ∃ skipped got ahead, (r.line j).shown = skipped ++ got ++ ahead ∧
      skipped.length ≤ (r.line j).early ∧ ahead.length ≤ 1 ∧
      (r.line j).delivered ++ r.buffered j = got.flatten := by
  obtain ⟨evs', h1, h2⟩ := LateNet.run_at (oc := oc) (cfg := cfg) hj s evs
  have := C133_coupler_received oc cfg j _ _ _ _ (LateNet.started_at h hj) evs' (h2 hu)
  rw [← h1] at this
  exact this hc

/-- C148, receiving: before the end of the initialisation nothing is received. -/
theorem C148_early (oc : Bool) (cfg : CouplerConfig) (w : Wiring) (s : LateNet) (h : s.Started cfg w)
    (evs : List LateNetEv) (hu : LateNet.OnlyUndecodable oc cfg evs)
    (hc : (s.run oc w evs).cycles < 2) (j : Nat) (hj : j ∈ w.modules) :
    let r := s.run oc w evs
    (r.line j).delivered ++ r.buffered j = [] := by
  obtain ⟨evs', h1, h2⟩ := LateNet.run_at (oc := oc) (cfg := cfg) hj s evs
  have := C133_coupler_early oc cfg j _ _ _ _ (LateNet.started_at h hj) evs' (h2 hu)
  rw [← h1] at this
  exact this hc

/-- C148, progress: when nothing is on the way any more, rounds in which the images arrive bring
everything written to all devices at once: as many as the longest queue needs. All cycles of these
rounds succeed, because the image of the outputs was complete at the start. -/
theorem C148_progress (oc : Bool) (cfg : CouplerConfig) (w : Wiring) (s : LateNet) (h : s.Started cfg w)
    (ho : OutputsReady cfg s.out) (evs : List LateNetEv) (hu : LateNet.OnlyUndecodable oc cfg evs)
    (hv : LateNet.AcceptedValues cfg evs) (hi : (s.run oc w evs).ins = [])
    (hos : (s.run oc w evs).outs = []) (pis : List (List Word))
    (hg : (s.run oc w evs).GoodInputs oc cfg w pis)
    (hk : ∀ j ∈ w.modules, 3 + (s.run oc w evs).segments j ≤ pis.length) (j : Nat) (hj : j ∈ w.modules) :
    (∃ old, (old = [] ∨ old = s.waiting w j) ∧
      (((s.run oc w evs).rounds oc w pis).line j).received = old ++ ((s.run oc w evs).line j).written) ∧
    ((s.run oc w evs).rounds oc w pis).queued j = [] ∧
    ((s.run oc w evs).rounds oc w pis).cycles = (s.run oc w evs).cycles + pis.length := by
  obtain ⟨evs', h1, h2⟩ := LateNet.run_at (oc := oc) (cfg := cfg) hj s evs
  have hF := (LateNet.Started.fit (oc := oc) h ho).run (w := w) evs hv
  obtain ⟨g1, g2⟩ := LateNet.rounds_at h.distinct hj _ hF pis hg
  have hseg : ∀ p, ((s.run oc w evs).at_ j).c.processors j = some p →
      3 + p.outData.length ≤ pis.length := by
    intro p hp
    have := hk j hj
    have hp' : (s.run oc w evs).c.processors j = some p := hp
    simpa only [LateNet.segments, hp'] using this
  have hi' : ((s.run oc w evs).at_ j).ins = [] := hi
  have hos' : ((s.run oc w evs).at_ j).outs = [] := hos
  rw [h1] at g1 hseg hi' hos'
  have := C133_coupler_progress oc cfg j _ _ _ _ (LateNet.started_at h hj) evs' (h2 hu) hi' hos' pis g1 hseg
  rw [← h1, ← g2] at this
  exact ⟨this.1, this.2, LateNet.rounds_cycles _ hF hi pis hg⟩

/-- C148, receiving: when nothing is on the way any more, one round in which the images arrive is enough
to have received, from all devices, everything they have presented. -/
theorem C148_read (oc : Bool) (cfg : CouplerConfig) (w : Wiring) (s : LateNet) (h : s.Started cfg w)
    (ho : OutputsReady cfg s.out) (evs : List LateNetEv) (hu : LateNet.OnlyUndecodable oc cfg evs)
    (hv : LateNet.AcceptedValues cfg evs) (hc : 2 ≤ (s.run oc w evs).cycles)
    (hi : (s.run oc w evs).ins = []) (hos : (s.run oc w evs).outs = []) (pi : List Word)
    (hg : (s.run oc w evs).GoodInputs oc cfg w [pi]) (j : Nat) (hj : j ∈ w.modules) :
    let r := (s.run oc w evs).rounds oc w [pi]
    ∃ skipped got, (r.line j).shown = skipped ++ got ∧ skipped.length ≤ (r.line j).early ∧
      (r.line j).delivered ++ r.buffered j = got.flatten := by
  obtain ⟨evs', h1, h2⟩ := LateNet.run_at (oc := oc) (cfg := cfg) hj s evs
  have hF := (LateNet.Started.fit (oc := oc) h ho).run (w := w) evs hv
  obtain ⟨g1, g2⟩ := LateNet.rounds_at h.distinct hj _ hF [pi] hg
  have hi' : ((s.run oc w evs).at_ j).ins = [] := hi
  have hos' : ((s.run oc w evs).at_ j).outs = [] := hos
  have hc' : 2 ≤ ((s.run oc w evs).at_ j).cycles := hc
  rw [h1] at g1 hi' hos' hc'
  have := C133_coupler_read oc cfg j _ _ _ _ (LateNet.started_at h hj) evs' (h2 hu) hc' hi' hos' pi g1
  rw [← h1, ← g2] at this
  exact this

/-- C148, restarts: over any number of restarts of the application every device takes over bytes that
were written to its own module, each at most once and in order, possibly after the segment that was
waiting for it at the start. -/
theorem C148_restarts (oc : Bool) (cfg : CouplerConfig) (w : Wiring) (s : LateNet) (h : s.Started cfg w)
    (runs : List (List LateNetEv × List Word)) (hg : LateNet.GoodSessions oc cfg w s.c s runs)
    (j : Nat) (hj : j ∈ w.modules) :
    ((LateNet.sessions oc w s.c j s runs).map (·.2)).flatten <+
      s.waiting w j ++ ((LateNet.sessions oc w s.c j s runs).map (·.1)).flatten := by
  have key : ∀ (runs : List (List LateNetEv × List Word)) (s : LateNet) (c : Coupler),
      LateNet.GoodSessions oc cfg w c s runs → ∃ runs',
        LateNet.sessions oc w c j s runs =
          LatePlant.sessions oc j (w.wire j).len (w.wire j).oi (w.wire j).oo c (s.at_ j) runs' ∧
        LatePlant.GoodSessions oc cfg j (w.wire j).len (w.wire j).oi (w.wire j).oo c (s.at_ j) runs' := by
    intro runs
    induction runs with
    | nil => exact fun s c _ => ⟨[], rfl, trivial⟩
    | cons x runs ih =>
      obtain ⟨evs, pi⟩ := x
      intro s c ⟨g1, g2, g3⟩
      obtain ⟨evs', h1, h2⟩ := LateNet.run_at (oc := oc) (cfg := cfg) hj s evs
      obtain ⟨runs', k1, k2⟩ := ih _ c g3
      rw [LateNet.restart_at, h1] at k1 k2
      have hs : (∃ f, inFrame (w.wire j).len (w.wire j).oi pi = some f ∧
          ((s.run oc w evs).at_ j).Presents f) := g2 j hj
      rw [h1] at hs
      refine ⟨(evs', pi) :: runs', ?_, h2 g1, hs, k2⟩
      simp only [LateNet.sessions, LatePlant.sessions, k1, ← h1]
      rfl
  obtain ⟨runs', k1, k2⟩ := key runs s s.c hg
  rw [k1]
  exact C133_coupler_restarts oc cfg j _ _ _ (s.at_ j) (LateNet.started_at h hj) runs' k2

/-! A digital output and two serial modules, both connected. The image of the outputs carries a segment
of two bytes for the device of the first, left by a previous run. -/

def exLateNet : LateNet where
  c := initial exDuo exDuoModules
  kept := [0#16, 0x0228#16, 0x0908#16, 0#16, 0#16, 0#16, 0#16, 0#16, 0#16]
  inp := List.replicate 8 0#16
  ins := []
  outs := []
  out := [0#16, 0x0228#16, 0x0908#16, 0#16, 0#16, 0#16, 0#16, 0#16, 0#16]
  cycles := 0
  line _ := ⟨0, 0, false, [], [], [[]], 0, []⟩

theorem exLateNet_started : exLateNet.Started exDuo exWires where
  c := exDuo_new
  distinct := by decide
  serial := exNet_initial.serial
  kept_bytes := fun j _ => exDuo_disjoint j
  kept := rfl
  out := by
    intro j hj
    simp only [exWires, List.mem_cons, List.not_mem_nil, or_false] at hj
    rcases hj with rfl | rfl <;> exact ⟨_, rfl⟩
  inp := by decide +kernel
  ins := rfl
  outs := rfl
  cycles := rfl
  devices := fun _ _ => ⟨Nat.zero_lt_succ 3, Nat.zero_lt_succ 3, rfl⟩
  logs := fun _ _ => ⟨rfl, rfl, rfl⟩

theorem exLateNet_ready : OutputsReady exDuo exLateNet.out := by
  constructor
  · intro j t par o i h hn
    rcases exDuo_at h with ⟨rfl, rfl, rfl, rfl, rfl⟩ | ⟨rfl, rfl, rfl, rfl, rfl⟩ |
      ⟨rfl, rfl, rfl, rfl, rfl⟩
    · exact ⟨by unfold InPlace; decide, by unfold Covers; decide, fun h => by cases h⟩
    · refine ⟨by unfold InPlace; decide, by unfold Covers; decide, fun _ b hb => ?_⟩
      rw [show byteAt _ _ = some 2#8 by decide] at hb
      cases hb; decide
    · refine ⟨by unfold InPlace; decide, by unfold Covers; decide, fun _ b hb => ?_⟩
      rw [show byteAt _ _ = some 0#8 by decide] at hb
      cases hb; decide
  · intro j t par o i ch us h hno ht
    rcases exDuo_at h with ⟨rfl, rfl, rfl, rfl, rfl⟩ | ⟨rfl, rfl, rfl, rfl, rfl⟩ |
      ⟨rfl, rfl, rfl, rfl, rfl⟩ <;> cases ht

/-- Bytes are written to both modules and an output is set. The first device takes over the segment that
was waiting. The image of the second cycle is lost, that of the first one arrives, and the device of the
second module presents a segment. -/
def exLateNetEvs : List LateNetEv :=
  [.write 1 [1#8, 2#8, 3#8, 4#8, 5#8, 6#8, 7#8], .write 2 [8#8, 9#8],
    .other (.setOutput ⟨0, 1⟩ (.bit true)), .take 1, .cycle, .cycle, .loseOut 1, .deliver, .take 1,
    .take 2, .post 2 [0x41#8]]

def exLateNetInputs : List (List Word) :=
  let last := [0x0060#16, 0#16, 0#16, 0#16, 0x0129#16, 0x0041#16, 0#16, 0#16]
  [[0x0020#16, 0#16, 0#16, 0#16, 0x0109#16, 0x0041#16, 0#16, 0#16],
   [0x0040#16, 0#16, 0#16, 0#16, 0x0129#16, 0x0041#16, 0#16, 0#16], last, last, last]

theorem exLateNetEvs_good : LateNet.OnlyUndecodable true exDuo exLateNetEvs ∧
    LateNet.AcceptedValues exDuo exLateNetEvs := by
  refine ⟨fun pi po h => by simp [exLateNetEvs] at h, fun a v h t ht => ?_⟩
  simp only [exLateNetEvs, List.mem_cons, LateNetEv.other.injEq, COp.setOutput.injEq, reduceCtorEq,
    List.not_mem_nil, or_false, false_or] at h
  obtain ⟨rfl, rfl⟩ := h
  cases ht
  exact .inr ⟨true, rfl⟩

/-- The state before the rounds … -/
noncomputable def exLateNetRun : LateNet := exLateNet.run true exWires exLateNetEvs

/-- … meets the hypotheses of `C148_progress` … -/
theorem exLateNetRun_good : exLateNetRun.ins = [] ∧ exLateNetRun.outs = [] ∧ exLateNetRun.cycles = 2 ∧
    exLateNetRun.GoodInputs true exDuo exWires exLateNetInputs ∧
    ∀ j ∈ exWires.modules, 3 + exLateNetRun.segments j ≤ exLateNetInputs.length := by
  refine ⟨by decide +kernel, by decide +kernel, by decide +kernel, ?_, by decide +kernel⟩
  have hin : ∀ pi ∈ exLateNetInputs, InputsReady exDuo pi := by
    intro pi hpi j t par o i h hn
    simp only [exLateNetInputs, List.mem_cons, List.not_mem_nil, or_false, or_self] at hpi
    rcases exDuo_at h with ⟨rfl, rfl, rfl, rfl, rfl⟩ | ⟨rfl, rfl, rfl, rfl, rfl⟩ |
      ⟨rfl, rfl, rfl, rfl, rfl⟩
    · exact absurd rfl hn
    · rcases hpi with rfl | rfl | rfl <;>
      · refine ⟨by unfold HasRegisters; decide, fun _ b hb => ?_⟩
        rw [show byteAt _ _ = some 0#8 by decide] at hb
        cases hb; decide
    · rcases hpi with rfl | rfl | rfl <;>
      · refine ⟨by unfold HasRegisters; decide, fun _ b hb => ?_⟩
        rw [show byteAt _ _ = some 1#8 by decide] at hb
        cases hb; decide
  exact ⟨hin _ (by simp [exLateNetInputs]), by decide +kernel, hin _ (by simp [exLateNetInputs]),
    by decide +kernel, hin _ (by simp [exLateNetInputs]), by decide +kernel,
    hin _ (by simp [exLateNetInputs]), by decide +kernel, hin _ (by simp [exLateNetInputs]),
    by decide +kernel, trivial⟩

/-- … and after the rounds both devices have everything, the first one after what was waiting. -/
example : exLateNet.waiting exWires 1 = [8#8, 9#8] ∧ exLateNet.waiting exWires 2 = [] ∧
    ((exLateNetRun.rounds true exWires exLateNetInputs).line 1).received =
      [8#8, 9#8] ++ [1#8, 2#8, 3#8, 4#8, 5#8, 6#8, 7#8] ∧
    ((exLateNetRun.rounds true exWires exLateNetInputs).line 2).received = [8#8, 9#8] ∧
    (exLateNetRun.rounds true exWires exLateNetInputs).buffered 2 = [0x41#8] := by decide +kernel

/-- The hypotheses of `C148_read` are met by the same state and the first of these images. -/
example := C148_read true exDuo exWires exLateNet exLateNet_started exLateNet_ready exLateNetEvs
  exLateNetEvs_good.1 exLateNetEvs_good.2 (by exact (exLateNetRun_good.2.2.1).ge) exLateNetRun_good.1
  exLateNetRun_good.2.1 _ ⟨exLateNetRun_good.2.2.2.1.1, exLateNetRun_good.2.2.2.1.2.1, trivial⟩ 2 (by decide)

/-- So are those of the other theorems. -/
example := C148_sent true exDuo exWires exLateNet exLateNet_started exLateNetEvs exLateNetEvs_good.1 1
  (by decide)
example := C148_received true exDuo exWires exLateNet exLateNet_started exLateNetEvs exLateNetEvs_good.1
  (by exact (exLateNetRun_good.2.2.1).ge) 2 (by decide)
example := C148_early true exDuo exWires exLateNet exLateNet_started [.write 1 [1#8], .cycle]
  (fun pi po h => by simp at h) (by decide +kernel) 2 (by decide)
example := C148_progress true exDuo exWires exLateNet exLateNet_started exLateNet_ready exLateNetEvs
  exLateNetEvs_good.1 exLateNetEvs_good.2 exLateNetRun_good.1 exLateNetRun_good.2.1 exLateNetInputs
  exLateNetRun_good.2.2.2.1 exLateNetRun_good.2.2.2.2 1 (by decide)

/-- Two runs. In the first one the device of the first module does not look at the images, and what is
written to it is lost at the restart; the other one gets its segment and takes it over after the restart.
The second run brings the first device what it writes. -/
def exLateNetRuns : List (List LateNetEv × List Word) :=
  [([.write 1 [1#8], .write 2 [2#8], .cycle, .deliver, .cycle, .deliver, .cycle, .deliver],
    List.replicate 8 0#16),
   ([.take 2, .write 1 [4#8], .cycle, .deliver, .take 1,
      .sample [0x0020#16, 0#16, 0#16, 0#16, 0x0020#16, 0#16, 0#16, 0#16], .arrive,
      .cycle, .cycle, .deliver, .deliver, .take 1],
    [0x0040#16, 0#16, 0#16, 0#16, 0x0020#16, 0#16, 0#16, 0#16])]

theorem exLateNetRuns_good : LateNet.GoodSessions true exDuo exWires exLateNet.c exLateNet exLateNetRuns ∧
    LateNet.sessions true exWires exLateNet.c 1 exLateNet exLateNetRuns = [([1#8], []), ([4#8], [4#8])] ∧
    LateNet.sessions true exWires exLateNet.c 2 exLateNet exLateNetRuns = [([2#8], []), ([], [2#8])] := by
  refine ⟨⟨fun pi po h => by simp at h, by decide +kernel, fun pi po h => by simp at h,
    by decide +kernel, trivial⟩, by decide +kernel, by decide +kernel⟩

example := C148_restarts true exDuo exWires exLateNet exLateNet_started exLateNetRuns exLateNetRuns_good.1
  1 (by decide)

end Ur20
