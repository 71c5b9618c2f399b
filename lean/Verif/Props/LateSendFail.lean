import Verif.Props.LateSend
import Verif.Props.LateFailRestart
import Verif.Spec.LateSendFail

/-!
# C155: failing cycles and sending with `set_output`, with late and lost images and restarts
-/

namespace Ur20

open Com Spec Coupler
open scoped List

namespace Spec.LateSend

theorem fail_iff {oc : Bool} {cfg : CouplerConfig} {w : Wiring} {n : LateNet} (h : Fails oc cfg n) :
    ∃ c' e, n.c.next oc n.inp n.kept = (c', .err e) ∧
      n.fstep oc cfg w .fail =
        { n with
          c := c', cycles := n.cycles + 1
          line := fun j => { n.line j with
            early := if n.cycles < 2 then (n.line j).shown.length else (n.line j).early } } := by
  obtain ⟨hd, e, he⟩ := h
  rcases hn : n.c.next oc n.inp n.kept with ⟨c', r⟩
  rw [hn] at he
  simp only at he
  subst he
  exact ⟨c', e, rfl, by simp only [LateNet.fstep, hn, if_pos hd]⟩

theorem Ok.given_reach {oc : Bool} {cfg : CouplerConfig} {w : Wiring} (hd : w.modules.Nodup)
    {s : LateSend} (h : Ok oc cfg w s) : ReachableFrom oc cfg (given w s).c ∧
    ∀ j ∈ w.modules, SerialAt (given w s).c j (w.wire j).len (w.wire j).oi (w.wire j).oo := by
  obtain ⟨r1, r2, r3⟩ := run_reach (w := w) (n := cleanNet w s.net) h.reach
    (writeEvs s.pend w.modules)
  rw [← h.given_run hd] at r1 r2 r3
  exact ⟨r1, fun j hj => (h.serial j hj).congr r2 r3⟩

/-- A cycle that decodes its images behaves as if the values had been given to the message processors. -/
theorem Ok.given_next {oc : Bool} {cfg : CouplerConfig} {w : Wiring} (hd : w.modules.Nodup)
    {s : LateSend} (h : Ok oc cfg w s) {pi po : List Word} (hp : Decodable cfg pi po) :
    s.net.c.next oc pi po = (given w s).c.next oc pi po := by
  obtain ⟨ins, outs, h1, h2⟩ := decodable_ok h.reach hp
  have := sets_decoded oc s.pend w.modules hd (inv_of_reachable h.reach)
    (fun j hj => ⟨_, _, _, (h.serial j hj).congr rfl rfl⟩) (fun j hj => clean_none w _ hj) h1 h2
  rw [h.sets] at this
  exact this

theorem Ok.fails_iff {oc : Bool} {cfg : CouplerConfig} {w : Wiring} (hd : w.modules.Nodup)
    {s : LateSend} (h : Ok oc cfg w s) : Fails oc cfg s.net ↔ Fails oc cfg (given w s) := by
  constructor
  · rintro ⟨h1, e, he⟩
    exact ⟨h1, e, by rw [h.given_next hd h1] at he; exact he⟩
  · rintro ⟨h1, e, he⟩
    have h1' : Decodable cfg s.net.inp s.net.kept := h1
    exact ⟨h1, e, by rw [h.given_next hd h1']; exact he⟩

/-- A cycle that fails although its images can be decoded takes the values. -/
theorem Ok.fail_step {oc : Bool} {cfg : CouplerConfig} {w : Wiring} (hd : w.modules.Nodup)
    {s : LateSend} (h : Ok oc cfg w s) (hf : Fails oc cfg s.net) :
    s.fstep oc cfg w .fail = start ((given w s).fstep oc cfg w .fail) ∧
    Ok oc cfg w (s.fstep oc cfg w .fail) ∧
    cleanNet w (s.fstep oc cfg w .fail).net = (given w s).fstep oc cfg w .fail := by
  obtain ⟨r1, r2⟩ := h.given_reach hd
  have hg := (h.fails_iff hd).1 hf
  obtain ⟨c', e, h1, h2⟩ := fail_iff (w := w) hf
  obtain ⟨c2, e2, h3, h4⟩ := fail_iff (w := w) hg
  have h5 := h.given_next hd hf.1
  have hcc : c2 = c' := by
    rw [h1] at h5
    have h3' : (given w s).c.next oc s.net.inp s.net.kept = (c2, .err e2) := h3
    rw [h3'] at h5
    exact (congrArg Prod.fst h5).symm
  subst hcc
  have e1 : s.fstep oc cfg w .fail = start ((given w s).fstep oc cfg w .fail) := by
    simp only [fstep, if_pos hf, h2, h4]
    rfl
  have hwr : ∀ j ∈ w.modules, c2.write ⟨j, 0⟩ = none := by
    intro j hj
    obtain ⟨-, -, -, -, -, -, -, -, -, g⟩ := decoded_serial r1 hg.1 (r2 j hj)
    rw [h3] at g
    exact g
  have hc : ((given w s).fstep oc cfg w .fail).c = c2 := by rw [h4]
  have hcl : clean w c2 = c2 := clean_eq hwr
  have hst := next_static oc (given w s).c (given w s).inp (given w s).kept
  rw [h3] at hst
  refine ⟨e1, ?_, ?_⟩
  · rw [e1]
    refine ⟨?_, fun j hj => ?_, fun j => ?_⟩
    · simp only [start, hc, hcl]
      have := reachable_run r1 [.next (given w s).inp (given w s).kept]
      simpa [runC, COp.apply, h3] using this
    · simp only [start, hc]
      exact (r2 j hj).congr hst.1 hst.2
    · simp only [start, hc]
      split
      · rename_i hj; exact (hwr j hj).symm
      · rfl
  · rw [e1]
    simp only [start, cleanNet, hc, hcl]
    rw [← hc]

theorem chunks_first (n : Nat) (set : List Byte) :
    (chunks n set).take 1 = if set = [] then [] else [set.take n] := by
  cases set with
  | nil => rfl
  | cons b l => simp [chunks, chunksAux]

theorem Ok.given_queue {oc : Bool} {cfg : CouplerConfig} {w : Wiring} (hd : w.modules.Nodup)
    {s : LateSend} (h : Ok oc cfg w s) {j : Nat} (hj : j ∈ w.modules) :
    ((given w s).queue j).take 1 =
      firstSegment (w.wire j).len (s.net.queue j) (sentBytes (s.pend j)) := by
  have hi := inv_of_reachable h.reach
  have hp : ∀ i ∈ w.modules, ∃ p, (clean w s.net.c).processors i = some p := by
    intro i hi'
    obtain ⟨cm, hm, -⟩ := h.serial i hi'
    exact hi.com i cm hm.1
  obtain ⟨p, hpj⟩ := hp j hj
  have hl : p.processDataLen = (w.wire j).len := by
    obtain ⟨cm, k1, k2⟩ := hi.proc j p hpj
    obtain ⟨cm', k3, k4, -⟩ := h.serial j hj
    have k3' : (clean w s.net.c).modules[j]? = some (.com cm') := k3.1
    rw [k3'] at k1
    cases k1
    rw [k2.1, k4]
  have e1 : (given w s).c.processors j = some (feed p (s.pend j)) := by
    have := feeds_processors s.pend w.modules hd (clean w s.net.c) hp j
    rw [if_pos hj, hpj] at this
    exact this
  have e2 : s.net.c.processors j = some p := hpj
  have hcap : capacity (w.wire j).len = (w.wire j).len.userDataLen := by
    cases (w.wire j).len <;> rfl
  have hq : (feed p (s.pend j)).outData =
      p.outData ++ chunks (w.wire j).len.userDataLen (sentBytes (s.pend j)) := by
    cases s.pend j with
    | none => simp [feed, sentBytes, chunks, chunksAux]
    | some v =>
      cases v <;> simp [feed, sentBytes, chunks, chunksAux, MessageProcessor.write, hl]
  simp only [LateNet.queue, e1, e2, hq]
  cases p.outData with
  | cons seg rest => simp [firstSegment]
  | nil =>
    rw [List.nil_append, chunks_first _]
    cases hs : sentBytes (s.pend j) with
    | nil => rfl
    | cons b l => simp [firstSegment, hcap]

theorem Ok.fail_loses {oc : Bool} {cfg : CouplerConfig} {w : Wiring} (hd : w.modules.Nodup)
    {s : LateSend} (h : Ok oc cfg w s) {j : Nat} (hj : j ∈ w.modules) :
    (given w s).failLoses oc cfg w j .fail = s.failLoses oc cfg w j .fail := by
  have hA : (given w s).Acknowledged w j ↔ s.net.Acknowledged w j := Iff.rfl
  have hf := h.fails_iff hd
  simp only [LateNet.failLoses, failLoses]
  by_cases hx : 2 ≤ s.net.cycles ∧ s.net.Acknowledged w j ∧ Fails oc cfg s.net
  · rw [if_pos hx, if_pos ⟨hx.1, hx.2.1, hf.1 hx.2.2⟩]
    exact h.given_queue hd hj
  · rw [if_neg hx, if_neg fun hy => hx ⟨hy.1, hy.2.1, hf.2 hy.2.2⟩]

theorem writeEvs_good {oc : Bool} {cfg : CouplerConfig} (pend : Nat → Option ChannelValue)
    (js : List Nat) : LateNet.OnlyUndecodable oc cfg (writeEvs pend js) := by
  intro pi po hm
  simp only [writeEvs, List.mem_flatMap] at hm
  obtain ⟨j, -, hm⟩ := hm
  split at hm <;> simp at hm

theorem others_map (evs : List LateNetEv) (rest : List LateNetFailEv) :
    LateNetFailEv.others (evs.map .ev ++ rest) = evs ++ LateNetFailEv.others rest ∧
    LateNetFailEv.fails (evs.map .ev ++ rest) = LateNetFailEv.fails rest := by
  induction evs with
  | nil => exact ⟨rfl, rfl⟩
  | cons e evs ih => exact ⟨congrArg (e :: ·) ih.1, ih.2⟩

/-- The system behaves like that without the values, with the bytes written when they are taken. -/
theorem frun_clean {oc : Bool} {cfg : CouplerConfig} {w : Wiring} (hw : w.modules ≠ [])
    (hd : w.modules.Nodup) {s : LateSend} (h : Ok oc cfg w s) (evs : List LateSendFailEv)
    (hu : OnlyUndecodable oc cfg (LateSendFailEv.others evs)) :
    Ok oc cfg w (s.frun oc cfg w evs) ∧
    ∃ evs', cleanNet w (s.frun oc cfg w evs).net = (cleanNet w s.net).frun oc cfg w evs' ∧
      LateNet.OnlyUndecodable oc cfg (LateNetFailEv.others evs') ∧
      (∀ j ∈ w.modules, (cleanNet w s.net).failLost oc cfg w j evs' = s.failLost oc cfg w j evs) ∧
      LateNetFailEv.fails evs' ≤ LateSendFailEv.fails evs := by
  induction evs generalizing s with
  | nil => exact ⟨h, [], rfl, (fun pi po hm => by simp [LateNetFailEv.others] at hm), fun _ _ => rfl, Nat.le_refl _⟩
  | cons e evs ih =>
    cases e with
    | ev e =>
      have hu0 : ∀ pi po, e = .ev (.failing pi po) →
          ¬ Decodable cfg pi po ∧ (oc = false → po.length ≤ 0xF800) :=
        fun pi po he => hu pi po (by rw [← he]; exact List.mem_cons_self)
      obtain ⟨h1, evs1, h2, h3, -⟩ := step_clean hw hd h e hu0
      obtain ⟨g1, evs2, g2, g3, g4, g5⟩ := ih h1 (fun pi po hm => hu pi po (List.mem_cons_of_mem _ hm))
      obtain ⟨o1, o2⟩ := others_map evs1 evs2
      refine ⟨g1, evs1.map .ev ++ evs2, ?_, ?_, fun j hj => ?_, ?_⟩
      · rw [(net_frun_ev 0 _ _ _).1, ← h2]
        exact g2
      · rw [o1]
        intro pi po hm
        rcases List.mem_append.1 hm with hm | hm
        · exact hu0 pi po (h3 pi po hm)
        · exact g3 pi po hm
      · rw [(net_frun_ev j _ _ _).2, ← h2]
        exact g4 j hj
      · rw [o2]
        exact g5
    | fail =>
      by_cases hf : Fails oc cfg s.net
      · obtain ⟨-, h1, h2⟩ := h.fail_step hd hf
        obtain ⟨g1, evs2, g2, g3, g4, g5⟩ := ih h1 hu
        obtain ⟨o1, o2⟩ := others_map (writeEvs s.pend w.modules) (.fail :: evs2)
        refine ⟨g1, (writeEvs s.pend w.modules).map .ev ++ .fail :: evs2, ?_, ?_, fun j hj => ?_, ?_⟩
        · rw [(net_frun_ev 0 _ _ _).1, ← h.given_run hd]
          change _ = ((given w s).fstep oc cfg w .fail).frun oc cfg w evs2
          rw [← h2]
          exact g2
        · rw [o1]
          intro pi po hm
          rcases List.mem_append.1 hm with hm | hm
          · exact writeEvs_good _ _ pi po hm
          · exact g3 pi po hm
        · rw [(net_frun_ev j _ _ _).2, ← h.given_run hd]
          simp only [LateNet.failLost, failLost, h.fail_loses hd hj]
          rw [← h2, g4 j hj]
        · rw [o2]
          exact Nat.succ_le_succ g5
      · have e1 : s.fstep oc cfg w .fail = s := by simp only [fstep, if_neg hf]
        obtain ⟨g1, evs2, g2, g3, g4, g5⟩ := ih h hu
        have e2 : s.frun oc cfg w (.fail :: evs) = s.frun oc cfg w evs := by
          change (s.fstep oc cfg w .fail).frun oc cfg w evs = _
          rw [e1]
        rw [e2]
        refine ⟨g1, evs2, g2, g3, fun j hj => ?_, Nat.le_succ_of_le g5⟩
        rw [g4 j hj]
        simp only [failLost, e1, failLoses]
        rw [if_neg fun hx => hf hx.2.2]
        rfl

/-! ### Rounds -/

theorem cycles_none {oc : Bool} {w : Wiring} (n : LateNet) (pis : List (List Word))
    (h : GoodCycles oc w (start n) pis) : n.GoodCycles oc w pis := by
  induction pis generalizing n with
  | nil => trivial
  | cons pi pis ih =>
    refine ⟨h.1, h.2.1, ih _ ?_⟩
    rw [← round_none]
    exact h.2.2

/-- The first round takes the values. -/
theorem Ok.first_cycle {oc : Bool} {cfg : CouplerConfig} {w : Wiring} (hd : w.modules.Nodup)
    {s : LateSend} (h : Ok oc cfg w s) (hi : s.net.ins = []) {pi : List Word}
    (hsh : s.net.Shows w pi) (hn : ∃ img, (s.net.c.next oc pi s.net.kept).2 = .ok img) :
    s.round oc w pi = start ((given w s).round oc w pi) ∧
    ∃ img, ((given w s).c.next oc pi s.net.kept).2 = .ok img := by
  have hsh' : (given w s).Shows w pi := hsh
  have a1 : s.step oc w (.ev (.sample pi)) =
      ⟨{ s.net with ins := s.net.ins ++ [pi] }, s.pend⟩ := by
    simp only [step, LateNet.step, hsh, if_true]
  have a2 : (⟨{ s.net with ins := s.net.ins ++ [pi] }, s.pend⟩ : LateSend).step oc w (.ev .arrive) =
      ⟨{ s.net with inp := pi }, s.pend⟩ := by
    simp only [step, LateNet.step, hi, List.nil_append, if_true]
  have b1 : (given w s).run oc w [.sample pi, .arrive] =
      given w ⟨{ s.net with inp := pi }, s.pend⟩ := by
    simp only [LateNet.run, List.foldl]
    have : (given w s).step oc w (.sample pi) = { given w s with ins := (given w s).ins ++ [pi] } := by
      simp only [LateNet.step, hsh', if_true]
    rw [this]
    have hgi : (given w s).ins = [] := hi
    simp only [LateNet.step, hgi, List.nil_append]
    simp only [given, taken, hi]
  have ok' : Ok oc cfg w ⟨{ s.net with inp := pi }, s.pend⟩ := ⟨h.reach, h.serial, h.pend⟩
  obtain ⟨img, hn⟩ := hn
  have hx := sets_next oc s.pend w.modules hd (inv_of_reachable h.reach)
    (fun j hj => ⟨_, _, _, (h.serial j hj).congr rfl rfl⟩) (fun j hj => clean_none w _ hj)
    pi s.net.kept img (s.net.c.next oc pi s.net.kept).1
  rw [h.sets] at hx
  have hg : (given w s).c.next oc pi s.net.kept = (_, .ok img) := hx.1 (Prod.ext rfl hn)
  have a3 : (⟨{ s.net with inp := pi }, s.pend⟩ : LateSend).step oc w (.ev .cycle) =
      start ((given w ⟨{ s.net with inp := pi }, s.pend⟩).step oc w .cycle) := by
    rcases cycle_step hd ok' with ⟨-, hs⟩ | ⟨hne, -⟩
    · exact hs
    · exact absurd (show ((given w s).c.next oc pi s.net.kept).2 = _ by rw [hg]) (hne img)
  have e1 : s.round oc w pi =
      (((s.step oc w (.ev (.sample pi))).step oc w (.ev .arrive)).step oc w (.ev .cycle)).run oc w
        ((.deliver :: w.modules.map .take : List LateNetEv).map .ev) := by
    simp only [LateSend.round, run, List.map_cons, List.cons_append, List.nil_append, List.foldl_cons]
  have e2 : (given w s).round oc w pi =
      (((given w s).run oc w [.sample pi, .arrive]).step oc w .cycle).run oc w
        (.deliver :: w.modules.map .take) := by
    simp only [LateNet.round, LateNet.run, List.cons_append, List.nil_append, List.foldl_cons, List.foldl_nil]
  exact ⟨by rw [e1, e2, a1, a2, a3, b1, run_none], img, by rw [hg]⟩

theorem Ok.cycles {oc : Bool} {cfg : CouplerConfig} {w : Wiring} (hd : w.modules.Nodup) {s : LateSend}
    (h : Ok oc cfg w s) (hi : s.net.ins = []) {pis : List (List Word)} (hne : pis ≠ [])
    (hg : GoodCycles oc w s pis) :
    s.rounds oc w pis = start ((given w s).rounds oc w pis) ∧ (given w s).GoodCycles oc w pis := by
  cases pis with
  | nil => exact absurd rfl hne
  | cons pi pis =>
    obtain ⟨g1, g2, g3⟩ := hg
    obtain ⟨e, hn⟩ := h.first_cycle hd hi g1 g2
    rw [e] at g3
    refine ⟨?_, g1, hn, cycles_none _ _ g3⟩
    change (s.round oc w pi).rounds oc w pis = _
    rw [e, rounds_none]
    rfl

end Spec.LateSend

/-! ### C155 -/

section

variable (oc : Bool) (cfg : CouplerConfig) (w : Wiring) (s : LateNet) (h : s.Started cfg w)
  (evs : List LateSendFailEv) (hu : LateSend.OnlyUndecodable oc cfg (LateSendFailEv.others evs))

include h

section

include hu

/-- C155: bytes are written and set on the channels of the serial modules, images are late or get lost,
and cycles fail. What a device takes over of what was written to its module or set on it and taken by a
cycle are, in order, all bytes except exactly the segments that failing cycles lose, possibly after the
segment that was waiting for it at the start. Each of these segments has at least one byte and fits into a
frame, and there is at most one for each failing cycle. -/
theorem C155_sent (j : Nat) (hj : j ∈ w.modules) :
    let r := ((LateSend.start s).frun oc cfg w evs).net
    let lost := (LateSend.start s).failLost oc cfg w j evs
    (∃ old, (old = [] ∨ old = s.waiting w j) ∧ ∃ l : Pieces, l.all = (r.line j).written ∧
      old ++ l.kept = (r.line j).received ++ r.inFlight w j ++ r.queued j ∧ l.gone = lost) ∧
    (∀ seg ∈ lost, 1 ≤ seg.length ∧ seg.length ≤ capacity (w.wire j).len) ∧
    lost.length ≤ LateSendFailEv.fails evs := by
  obtain ⟨h1, h2⟩ := LateSend.started (oc := oc) h
  obtain ⟨-, evs', h3, h4, h5, h6⟩ :=
    LateSend.frun_clean (List.ne_nil_of_mem hj) h.distinct h1 evs hu
  rw [show LateSend.cleanNet w (LateSend.start s).net = s from h2] at h3 h5
  obtain ⟨k1, k2, k3⟩ := C154_net_sent oc cfg w s h evs' h4 j hj
  rw [h5 j hj] at k1 k2 k3
  rw [← h3] at k1
  exact ⟨k1, k2, k3.trans h6⟩

/-- C155, receiving: neither failing cycles nor the bytes that are set disturb what is received. -/
theorem C155_received (hc : 2 ≤ ((LateSend.start s).frun oc cfg w evs).net.cycles) (j : Nat)
    (hj : j ∈ w.modules) :
    let r := ((LateSend.start s).frun oc cfg w evs).net
    ∃ skipped got ahead, (r.line j).shown = skipped ++ got ++ ahead ∧
      skipped.length ≤ (r.line j).early ∧ ahead.length ≤ 1 ∧
      (r.line j).delivered ++ r.buffered j = got.flatten := by
  obtain ⟨h1, h2⟩ := LateSend.started (oc := oc) h
  obtain ⟨-, evs', h3, h4, -, -⟩ :=
    LateSend.frun_clean (List.ne_nil_of_mem hj) h.distinct h1 evs hu
  rw [show LateSend.cleanNet w (LateSend.start s).net = s from h2] at h3
  have hc' : 2 ≤ (LateSend.cleanNet w ((LateSend.start s).frun oc cfg w evs).net).cycles := hc
  rw [h3] at hc'
  have := C154_net_received oc cfg w s h evs' h4 hc' j hj
  rw [← h3] at this
  exact this

/-- C155, receiving: before the end of the initialisation nothing is received. -/
theorem C155_early (hc : ((LateSend.start s).frun oc cfg w evs).net.cycles < 2) (j : Nat)
    (hj : j ∈ w.modules) :
    let r := ((LateSend.start s).frun oc cfg w evs).net
    (r.line j).delivered ++ r.buffered j = [] := by
  obtain ⟨h1, h2⟩ := LateSend.started (oc := oc) h
  obtain ⟨-, evs', h3, h4, -, -⟩ :=
    LateSend.frun_clean (List.ne_nil_of_mem hj) h.distinct h1 evs hu
  rw [show LateSend.cleanNet w (LateSend.start s).net = s from h2] at h3
  have hc' : (LateSend.cleanNet w ((LateSend.start s).frun oc cfg w evs).net).cycles < 2 := hc
  rw [h3] at hc'
  have := C154_net_early oc cfg w s h evs' h4 hc' j hj
  rw [← h3] at this
  exact this

/-- C155, progress: when nothing is on the way any more, rounds in which the images arrive and the cycles
succeed bring everything that is not lost to the devices, also the bytes that are still set. -/
theorem C155_progress (pis : List (List Word)) (j : Nat) (hj : j ∈ w.modules) :
    let r := (LateSend.start s).frun oc cfg w evs
    let r' := r.rounds oc w pis
    r.net.ins = [] → r.net.outs = [] → r.GoodCycles oc w pis →
    3 + r.net.segments j + ((sentBytes (r.pend j)).length + capacity (w.wire j).len - 1) /
      capacity (w.wire j).len ≤ pis.length →
    (∃ old, (old = [] ∨ old = s.waiting w j) ∧ ∃ l : Pieces,
      l.all = (r.net.line j).written ++ sentBytes (r.pend j) ∧
      old ++ l.kept = (r'.net.line j).received ∧
      l.gone = (LateSend.start s).failLost oc cfg w j evs) ∧
    r'.net.queued j = [] := by
  intro r r' hi ho hg hk
  obtain ⟨h1, h2⟩ := LateSend.started (oc := oc) h
  obtain ⟨g1, evs', h3, h4, h5, -⟩ :=
    LateSend.frun_clean (List.ne_nil_of_mem hj) h.distinct h1 evs hu
  rw [show LateSend.cleanNet w (LateSend.start s).net = s from h2] at h3 h5
  have hne : pis ≠ [] := by
    rintro rfl
    simp at hk
  obtain ⟨m1, m2⟩ := g1.cycles h.distinct hi hne hg
  let wr := LateSend.writeEvs r.pend w.modules
  have happ : ∀ (l : List LateNetFailEv) (n : LateNet),
      n.frun oc cfg w (l ++ wr.map .ev) = (n.frun oc cfg w l).run oc w wr ∧
      n.failLost oc cfg w j (l ++ wr.map .ev) = n.failLost oc cfg w j l ∧
      LateNetFailEv.others (l ++ wr.map .ev) = LateNetFailEv.others l ++ wr := by
    intro l
    induction l with
    | nil =>
      intro n
      obtain ⟨a1, a2⟩ := net_frun_ev (oc := oc) (cfg := cfg) (w := w) j n wr []
      have a3 := (LateSend.others_map wr []).1
      simp only [List.append_nil] at a1 a2 a3
      refine ⟨?_, ?_, ?_⟩
      · rw [List.nil_append, a1]; rfl
      · rw [List.nil_append, a2]; rfl
      · rw [List.nil_append, a3]; simp [LateNetFailEv.others]
    | cons e l ih =>
      intro n
      obtain ⟨b1, b2, b3⟩ := ih (n.fstep oc cfg w e)
      refine ⟨b1, ?_, ?_⟩
      · simp only [List.cons_append, LateNet.failLost, b2]
      · cases e with
        | ev e => simp only [List.cons_append, LateNetFailEv.others, b3]
        | fail => simp only [List.cons_append, LateNetFailEv.others, b3]
  obtain ⟨a1, a2, a3⟩ := happ evs' s
  have hgv : LateSend.given w r = s.frun oc cfg w (evs' ++ wr.map .ev) := by
    rw [a1, ← h3]
    exact g1.given_run h.distinct
  have hq : ((LateSend.given w r).queue j).length = (LateSend.given w r).segments j := by
    simp only [LateNet.queue, LateNet.segments]
    cases (LateSend.given w r).c.processors j <;> rfl
  have hseg : (LateSend.given w r).segments j = _ := g1.segments h.distinct hj
  have hi' : (LateSend.given w r).ins = [] := hi
  have ho' : (LateSend.given w r).outs = [] := ho
  have hk' : 3 + ((LateSend.given w r).queue j).length ≤ pis.length := by
    rw [hq, hseg]
    have hk2 : 3 + r.net.segments j + _ ≤ pis.length := hk
    show 3 + (r.net.segments j + ((sentBytes (r.pend j)).length + _ - 1) / _) ≤ _
    omega
  have m2' : (LateSend.given w r).GoodCycles oc w pis := m2
  rw [hgv] at hi' ho' hk' m2'
  obtain ⟨⟨old, p1, l, p2, p3, p4⟩, p5⟩ := C154_net_progress oc cfg w s h (evs' ++ wr.map .ev)
    (by
      rw [a3]
      intro pi po hm
      rcases List.mem_append.1 hm with hm | hm
      · exact h4 pi po hm
      · exact LateSend.writeEvs_good _ _ pi po hm)
    hi' ho' pis m2' j hj hk'
  have hr : LateNet.rounds oc w (LateSend.given w r) pis = r'.net := by
    rw [show r' = _ from m1]; rfl
  rw [← hgv] at p2
  rw [← hgv, hr] at p3 p5
  exact ⟨⟨old, p1, l, p2, p3, by rw [p4, a2, h5 j hj]⟩, p5⟩

end

omit evs in
/-- C155, restarts: over any number of restarts of the application and failing cycles every device takes
over bytes that were written to its own module or set on it and taken by a cycle, each at most once and in
order, possibly after the segment that was waiting for it at the start. -/
theorem C155_restarts (runs : List (List LateSendFailEv × List Word))
    (hg : LateSend.GoodFailSessions oc cfg w s.c s runs) (j : Nat) (hj : j ∈ w.modules) :
    ((LateSend.fsessions oc cfg w s.c j s runs).map (·.2)).flatten <+
      s.waiting w j ++ ((LateSend.fsessions oc cfg w s.c j s runs).map (·.1)).flatten := by
  have hw := List.ne_nil_of_mem hj
  have key : ∀ (runs : List (List LateSendFailEv × List Word)) (n : LateNet),
      LateSend.Ok oc cfg w (LateSend.start n) → LateSend.cleanNet w n = n → n.c = s.c →
      LateSend.GoodFailSessions oc cfg w s.c n runs → ∃ runs',
        LateSend.fsessions oc cfg w s.c j n runs = LateNet.fsessions oc cfg w s.c j n runs' ∧
        LateNet.GoodFailSessions oc cfg w s.c n runs' := by
    intro runs
    induction runs with
    | nil => exact fun n _ _ _ _ => ⟨[], rfl, trivial⟩
    | cons x runs ih =>
      obtain ⟨evs, pi⟩ := x
      intro n h1 h2 h6 ⟨g1, g2, g3⟩
      obtain ⟨-, evs', h3, h4, -, -⟩ := LateSend.frun_clean hw h.distinct h1 evs g1
      rw [show LateSend.cleanNet w (LateSend.start n).net = n from h2] at h3
      have hcl : LateSend.clean w s.c = s.c := by
        rw [← h6]
        exact congrArg LateNet.c h2
      have hok : LateSend.Ok oc cfg w
          (LateSend.start (((LateSend.start n).frun oc cfg w evs).net.restart s.c pi)) := by
        obtain ⟨q1, q2, q3⟩ := h1
        simp only [LateSend.start, h6] at q1 q2 q3
        exact ⟨q1, q2, q3⟩
      obtain ⟨runs', k1, k2⟩ := ih _ hok (by
        show ({ LateNet.restart s.c pi _ with c := LateSend.clean w s.c } : LateNet) = _
        rw [hcl]; rfl) rfl g3
      have hr : ((LateSend.start n).frun oc cfg w evs).net.restart s.c pi =
          (n.frun oc cfg w evs').restart s.c pi := by rw [← h3]; rfl
      have hs : (n.frun oc cfg w evs').Shows w pi := by rw [← h3]; exact g2
      rw [hr] at k1 k2
      refine ⟨(evs', pi) :: runs', ?_, h4, hs, k2⟩
      simp only [LateSend.fsessions, LateNet.fsessions]
      rw [hr, k1, ← h3]
      rfl
  obtain ⟨h1, h2⟩ := LateSend.started (oc := oc) h
  obtain ⟨runs', k1, k2⟩ := key runs s h1 h2 rfl hg
  rw [k1]
  exact C154_net_restarts oc cfg w s h runs' k2 j hj

end

/-! ### Examples

Bytes are set on the channel of the first module, whose queue is empty; bytes are written to the second one
and others are set on it; a value of the wrong kind is set on the digital outputs. -/

def exSendFailBefore : List LateSendEv :=
  [.ev .cycle, .ev .cycle, .set 1 (.bytes [1#8]), .ev (.write 2 [8#8, 9#8]), .set 2 (.bytes [10#8]),
   .ev (.other (.setOutput ⟨0, 0⟩ (.bytes [])))]

def exSendFailAfter : List LateSendEv := [.ev .deliver, .ev .deliver, .set 1 (.bytes [5#8])]

/-- The cycle fails; then the images of the first two cycles arrive, and other bytes are set. -/
def exSendFailEvs : List LateSendFailEv :=
  exSendFailBefore.map .ev ++ (.fail :: exSendFailAfter.map .ev)

theorem send_frun_ev {oc : Bool} {cfg : CouplerConfig} {w : Wiring} (j : Nat) (s : LateSend)
    (evs : List LateSendEv) (rest : List LateSendFailEv) :
    s.frun oc cfg w (evs.map .ev ++ rest) = (s.run oc w evs).frun oc cfg w rest ∧
    s.failLost oc cfg w j (evs.map .ev ++ rest) = (s.run oc w evs).failLost oc cfg w j rest := by
  induction evs generalizing s with
  | nil => exact ⟨rfl, rfl⟩
  | cons e evs ih => exact ih (s.step oc w e)

theorem exSendFail_fails :
    let s := (LateSend.start exFailNet).run true exWires exSendFailBefore
    s.fstep true exDuo exWires .fail = LateSend.start (LateSend.taken s.pend
      { s.net with c := (s.net.c.next true (List.replicate 8 0#16) exFailImage).1, cycles := 3 }) ∧
    s.failLoses true exDuo exWires 1 .fail = [[1#8]] ∧
    s.failLoses true exDuo exWires 2 .fail = [[8#8, 9#8]] := by
  intro s
  have hn : (s.net.c.next true (List.replicate 8 0#16) exFailImage).2 = .err .channelValue := by
    decide +kernel
  have hi : s.net.inp = List.replicate 8 0#16 := by decide +kernel
  have hk : s.net.kept = exFailImage := by decide +kernel
  have hc : s.net.cycles = 2 := by decide +kernel
  have hq : s.net.queue 1 = [] ∧ s.net.queue 2 = [[8#8, 9#8]] := by decide +kernel
  have hp : sentBytes (s.pend 1) = [1#8] := by decide +kernel
  have hf : LateSend.Fails true exDuo s.net :=
    ⟨by rw [hi, hk]; exact exDuo_decodable, .channelValue, by rw [hi, hk]; exact hn⟩
  have ha : ∀ j ∈ exWires.modules, s.net.Acknowledged exWires j := by
    intro j hj i o h1 h2
    rw [hi] at h1
    rw [hk] at h2
    simp only [exWires, List.mem_cons, List.not_mem_nil, or_false] at hj
    have e1 : (inFrame (exWires.wire j).len (exWires.wire j).oi (List.replicate 8 0#16)).map
        (·.txCntAck) = some 0 := by
      rcases hj with rfl | rfl <;> decide +kernel
    have e2 : (outFrame (exWires.wire j).len (exWires.wire j).oo exFailImage).map (·.txCnt) =
        some 0 := by
      rcases hj with rfl | rfl <;> decide +kernel
    rw [h1, Option.map_some, Option.some.injEq] at e1
    rw [h2, Option.map_some, Option.some.injEq] at e2
    omega
  generalize s = s at *
  refine ⟨?_, ?_, ?_⟩
  · obtain ⟨c', e, h1, h2⟩ := LateSend.fail_iff (w := exWires) hf
    simp only [LateSend.fstep, if_pos hf, h2]
    rw [hi, hk] at h1
    rw [h1, hc]
    simp only [Nat.lt_irrefl, if_false]
  · simp only [LateSend.failLoses, hq.1, hp]
    rw [if_pos ⟨by omega, ha 1 (by decide), hf⟩]
    rfl
  · simp only [LateSend.failLoses, hq.2]
    rw [if_pos ⟨by omega, ha 2 (by decide), hf⟩]
    rfl

theorem exSendFailEvs_run :
    let s := (LateSend.start exFailNet).run true exWires exSendFailBefore
    (LateSend.start exFailNet).frun true exDuo exWires exSendFailEvs =
      (LateSend.start (LateSend.taken s.pend
        { s.net with c := (s.net.c.next true (List.replicate 8 0#16) exFailImage).1,
                     cycles := 3 })).run true exWires exSendFailAfter ∧
    (LateSend.start exFailNet).failLost true exDuo exWires 1 exSendFailEvs = [[1#8]] ∧
    (LateSend.start exFailNet).failLost true exDuo exWires 2 exSendFailEvs = [[8#8, 9#8]] := by
  intro s
  obtain ⟨h4, h5, h6⟩ := exSendFail_fails
  have hb : ∀ j, _ := fun j => send_frun_ev (oc := true) (cfg := exDuo) (w := exWires) j
    (LateSend.start exFailNet) exSendFailBefore (.fail :: exSendFailAfter.map .ev)
  rw [exSendFailEvs, (hb 1).1, (hb 1).2, (hb 2).2]
  refine ⟨?_, ?_, ?_⟩
  · rw [LateSend.frun, List.foldl_cons, h4]
    rfl
  · rw [LateSend.failLost, h5]
    rfl
  · rw [LateSend.failLost, h6]
    rfl

theorem exSendFailEvs_good :
    LateSend.OnlyUndecodable true exDuo (LateSendFailEv.others exSendFailEvs) := by
  intro pi po h
  simp [exSendFailEvs, exSendFailBefore, exSendFailAfter, LateSendFailEv.others] at h

def exSendFailInputs : List (List Word) :=
  let last := [0x0020#16, 0#16, 0#16, 0#16, 0x0020#16, 0#16, 0#16, 0#16]
  [List.replicate 8 0#16, last, last, last]

/-- The bytes set on the first module are lost with the failing cycle, and those set on the second one wait
in its queue. -/
example :
    let r := (LateSend.start exFailNet).frun true exDuo exWires exSendFailEvs
    (r.net.line 1).written = [1#8] ∧ r.net.queued 1 = [] ∧ sentBytes (r.pend 1) = [5#8] ∧
    (r.net.line 2).written = [8#8, 9#8, 10#8] ∧ r.net.queued 2 = [10#8] := by
  rw [exSendFailEvs_run.1]
  decide +kernel

example := C155_sent true exDuo exWires exFailNet exFailNet_initial.started exSendFailEvs
  exSendFailEvs_good 1 (by decide)

example := C155_received true exDuo exWires exFailNet exFailNet_initial.started exSendFailEvs
  exSendFailEvs_good (by rw [exSendFailEvs_run.1]; decide +kernel) 2 (by decide)

example := C155_early true exDuo exWires exFailNet exFailNet_initial.started
  [.ev (.set 1 (.bytes [1#8])), .ev (.ev .cycle)]
  (fun pi po h => by simp [LateSendFailEv.others] at h)
  (by show ((LateSend.start exFailNet).run true exWires
        [.set 1 (.bytes [1#8]), .ev .cycle]).net.cycles < 2
      decide +kernel) 2 (by decide)

theorem exSendFail_cycles : ((LateSend.start exFailNet).frun true exDuo exWires
    exSendFailEvs).GoodCycles true exWires exSendFailInputs := by
  rw [exSendFailEvs_run.1]
  exact ⟨by decide +kernel, ⟨_, rfl⟩, by decide +kernel, ⟨_, rfl⟩, by decide +kernel, ⟨_, rfl⟩,
    by decide +kernel, ⟨_, rfl⟩, trivial⟩

/-- The hypotheses of `C155_progress` are met … -/
example := C155_progress true exDuo exWires exFailNet exFailNet_initial.started exSendFailEvs
  exSendFailEvs_good exSendFailInputs 1 (by decide) (by rw [exSendFailEvs_run.1]; decide +kernel)
  (by rw [exSendFailEvs_run.1]; decide +kernel) exSendFail_cycles
  (by rw [exSendFailEvs_run.1]; decide +kernel)

/-- … and the devices get everything else. -/
example :
    let r := ((LateSend.start exFailNet).frun true exDuo exWires exSendFailEvs).rounds true exWires
      exSendFailInputs
    (r.net.line 1).received = [5#8] ∧ (r.net.line 2).received = [10#8] := by
  rw [exSendFailEvs_run.1]
  decide +kernel

example := C155_restarts true exDuo exWires exFailNet exFailNet_initial.started
  [(exSendFailEvs, List.replicate 8 0#16)]
  ⟨exSendFailEvs_good, by rw [exSendFailEvs_run.1]; decide +kernel, trivial⟩ 2 (by decide)

end Ur20
