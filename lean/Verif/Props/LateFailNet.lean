import Verif.Props.LateFail
import Verif.Props.LateNet
import Verif.Props.LostNet

/-!
# C152: failing cycles with late and lost images and any number of serial devices
-/

namespace Ur20

open Com Spec Coupler

namespace Spec.LateNet

theorem initial_at {cfg : CouplerConfig} {w : Wiring} {s : LateNet} (h : s.Initial cfg w) {j : Nat}
    (hj : j ∈ w.modules) :
    (s.at_ j).Initial cfg j (w.wire j).len (w.wire j).oi (w.wire j).oo := by
  have h1 := started_at h.started hj
  obtain ⟨f, hf⟩ := h1.out
  exact ⟨h1.c, h1.serial, h1.disjoint, h1.kept, ⟨f, hf, h.data j hj f hf⟩, h1.inp, h1.ins, h1.outs,
    h1.ack, h1.rxCnt, h1.shown, h1.logs⟩

theorem fail_at {oc : Bool} {cfg : CouplerConfig} {w : Wiring} (s : LateNet) (j : Nat) :
    (s.fstep oc cfg w .fail).at_ j =
        (s.at_ j).fstep oc cfg j (w.wire j).len (w.wire j).oi (w.wire j).oo .fail ∧
      s.failLoses oc cfg w j .fail =
        (s.at_ j).failLoses oc cfg j (w.wire j).len (w.wire j).oi (w.wire j).oo .fail := by
  refine ⟨?_, rfl⟩
  simp only [fstep, LatePlant.fstep, at_]
  rcases hn : s.c.next oc s.inp s.kept with ⟨c', r⟩
  cases r with
  | err e =>
    by_cases hd : Decodable cfg s.inp s.kept
    · simp only [if_pos hd]
      exact (if_pos hd).symm
    · simp only [if_neg hd]
      exact (if_neg hd).symm
  | _ => rfl

/-- The schedule, seen from one module. -/
theorem frun_at {oc : Bool} {cfg : CouplerConfig} {w : Wiring} {j : Nat} (hj : j ∈ w.modules)
    (s : LateNet) (evs : List LateNetFailEv)
    (hu : OnlyUndecodable oc cfg (LateNetFailEv.others evs)) :
    ∃ evs', (s.frun oc cfg w evs).at_ j =
        (s.at_ j).frun oc cfg j (w.wire j).len (w.wire j).oi (w.wire j).oo evs' ∧
      s.failLost oc cfg w j evs =
        (s.at_ j).failLost oc cfg j (w.wire j).len (w.wire j).oi (w.wire j).oo evs' ∧
      LatePlantFailEv.fails evs' = LateNetFailEv.fails evs ∧
      LatePlant.OnlyUndecodable oc cfg (LatePlantFailEv.others evs') := by
  induction evs generalizing s with
  | nil => exact ⟨[], rfl, rfl, rfl, fun pi po h => by cases h⟩
  | cons e evs ih =>
    cases e with
    | ev e =>
      obtain ⟨evs', h1, h2, h3, h4⟩ := ih (s.step oc w e)
        fun pi po hm => hu pi po (List.mem_cons_of_mem _ hm)
      rcases step_at (oc := oc) hj s e with h | ⟨e', h, hf⟩
      · rw [h] at h1 h2
        exact ⟨evs', h1, h2, h3, h4⟩
      · rw [h] at h1 h2
        refine ⟨.ev e' :: evs', h1, h2, h3, fun pi po hm => ?_⟩
        rcases List.mem_cons.1 hm with hm | hm
        · exact hu pi po (by rw [hf pi po hm.symm]; exact List.mem_cons_self)
        · exact h4 pi po hm
    | fail =>
      obtain ⟨evs', h1, h2, h3, h4⟩ := ih (s.fstep oc cfg w .fail) hu
      obtain ⟨f1, f2⟩ := fail_at (oc := oc) (cfg := cfg) (w := w) s j
      rw [f1] at h1 h2
      refine ⟨.fail :: evs', h1, ?_, congrArg (· + 1) h3, h4⟩
      simp only [failLost, LatePlant.failLost, f2, h2]

theorem cycles_at {oc : Bool} {w : Wiring} (hw : w.modules.Nodup) {j : Nat} (hj : j ∈ w.modules)
    (s : LateNet) (pis : List (List Word)) (hg : s.GoodCycles oc w pis) :
    LatePlant.GoodRounds oc j (w.wire j).len (w.wire j).oi (w.wire j).oo (s.at_ j) pis ∧
    (s.rounds oc w pis).at_ j =
      (s.at_ j).rounds oc j (w.wire j).len (w.wire j).oi (w.wire j).oo pis := by
  induction pis generalizing s with
  | nil => exact ⟨trivial, rfl⟩
  | cons pi pis ih =>
    obtain ⟨g1, g2, g3⟩ := hg
    have hr := round_at (oc := oc) hw hj s g1
    obtain ⟨k1, k2⟩ := ih _ g3
    rw [hr] at k1 k2
    refine ⟨⟨g1 j hj, g2, k1⟩, ?_⟩
    have h3 : s.rounds oc w (pi :: pis) = (s.round oc w pi).rounds oc w pis := rfl
    rw [h3, k2]
    simp [LatePlant.rounds, LatePlant.run]

end Spec.LateNet

/-- C152 for any number of devices, sending: what was written to a module divides into pieces in the order
of writing. Those that are kept are what its device has taken over, what is in flight and what is queued;
those that are not kept are the segments the failing cycles lose, each of them of one frame and at most
one for each cycle that fails although its images can be decoded. -/
theorem C152_net_sent (oc : Bool) (cfg : CouplerConfig) (w : Wiring) (s : LateNet) (h : s.Initial cfg w)
    (evs : List LateNetFailEv) (hu : LateNet.OnlyUndecodable oc cfg (LateNetFailEv.others evs))
    (j : Nat) (hj : j ∈ w.modules) :
    let r := s.frun oc cfg w evs
    let lost := s.failLost oc cfg w j evs
    (∃ l : Pieces, l.all = (r.line j).written ∧
      l.kept = (r.line j).received ++ r.inFlight w j ++ r.queued j ∧ l.gone = lost) ∧
    (∀ seg ∈ lost, 1 ≤ seg.length ∧ seg.length ≤ capacity (w.wire j).len) ∧
    lost.length ≤ LateNetFailEv.fails evs := by
  obtain ⟨evs', h1, h2, h3, h4⟩ := LateNet.frun_at hj s evs hu
  have := C152_coupler_sent oc cfg j _ _ _ _ (LateNet.initial_at h hj) evs' h4
  simp only at this ⊢
  rw [← h1, ← h2, h3] at this
  exact this

/-- C152 for any number of devices, receiving: failing cycles lose and double nothing of what the devices
send. -/
theorem C152_net_received (oc : Bool) (cfg : CouplerConfig) (w : Wiring) (s : LateNet)
    (h : s.Initial cfg w) (evs : List LateNetFailEv)
    (hu : LateNet.OnlyUndecodable oc cfg (LateNetFailEv.others evs))
    (hc : 2 ≤ (s.frun oc cfg w evs).cycles) (j : Nat) (hj : j ∈ w.modules) :
    let r := s.frun oc cfg w evs
    ∃ skipped got ahead, (r.line j).shown = skipped ++ got ++ ahead ∧
      skipped.length ≤ (r.line j).early ∧ ahead.length ≤ 1 ∧
      (r.line j).delivered ++ r.buffered j = got.flatten := by
  obtain ⟨evs', h1, -, -, h4⟩ := LateNet.frun_at hj s evs hu
  have := C152_coupler_received oc cfg j _ _ _ _ (LateNet.initial_at h hj) evs' h4
    (by rw [← h1]; exact hc)
  simp only at this ⊢
  rw [← h1] at this
  exact this

/-- C152 for any number of devices, receiving: before the end of the initialisation nothing is
received. -/
theorem C152_net_early (oc : Bool) (cfg : CouplerConfig) (w : Wiring) (s : LateNet)
    (h : s.Initial cfg w) (evs : List LateNetFailEv)
    (hu : LateNet.OnlyUndecodable oc cfg (LateNetFailEv.others evs))
    (hc : (s.frun oc cfg w evs).cycles < 2) (j : Nat) (hj : j ∈ w.modules) :
    let r := s.frun oc cfg w evs
    (r.line j).delivered ++ r.buffered j = [] := by
  obtain ⟨evs', h1, -, -, h4⟩ := LateNet.frun_at hj s evs hu
  have := C152_coupler_early oc cfg j _ _ _ _ (LateNet.initial_at h hj) evs' h4
    (by rw [← h1]; exact hc)
  simp only at this ⊢
  rw [← h1] at this
  exact this

/-- C152 for any number of devices, progress: when the cycles succeed again and nothing is on the way, a
number of rounds bounded by the queue of a module brings all that was written to its device, except for
the segments lost before. -/
theorem C152_net_progress (oc : Bool) (cfg : CouplerConfig) (w : Wiring) (s : LateNet)
    (h : s.Initial cfg w) (evs : List LateNetFailEv)
    (hu : LateNet.OnlyUndecodable oc cfg (LateNetFailEv.others evs))
    (hi : (s.frun oc cfg w evs).ins = []) (ho : (s.frun oc cfg w evs).outs = [])
    (pis : List (List Word)) (hg : (s.frun oc cfg w evs).GoodCycles oc w pis) (j : Nat)
    (hj : j ∈ w.modules) (hk : 3 + ((s.frun oc cfg w evs).queue j).length ≤ pis.length) :
    let r := (s.frun oc cfg w evs).rounds oc w pis
    (∃ l : Pieces, l.all = ((s.frun oc cfg w evs).line j).written ∧ l.kept = (r.line j).received ∧
      l.gone = s.failLost oc cfg w j evs) ∧
    r.queued j = [] := by
  obtain ⟨evs', h1, h2, -, h4⟩ := LateNet.frun_at hj s evs hu
  obtain ⟨k1, k2⟩ := LateNet.cycles_at h.started.distinct hj _ pis hg
  rw [h1] at k1 k2
  have := C152_coupler_progress oc cfg j _ _ _ _ (LateNet.initial_at h hj) evs' h4
    (by rw [← h1]; exact hi) (by rw [← h1]; exact ho) pis k1 (by rw [← h1]; exact hk)
  simp only at this ⊢
  rw [← k2, ← h1, ← h2] at this
  exact this

/-- The station of `exLateNet` without data of a previous run. -/
def exFailNet : LateNet :=
  { exLateNet with kept := List.replicate 9 0#16, out := List.replicate 9 0#16 }

theorem exFailNet_initial : exFailNet.Initial exDuo exWires where
  started := { exLateNet_started with
    kept := rfl
    out := by
      intro j hj
      simp only [exWires, List.mem_cons, List.not_mem_nil, or_false] at hj
      rcases hj with rfl | rfl <;> exact ⟨_, rfl⟩
    inp := by decide +kernel }
  data := by
    intro j hj f hf
    simp only [exWires, List.mem_cons, List.not_mem_nil, or_false] at hj
    have : (outFrame (exWires.wire j).len (exWires.wire j).oo exFailNet.out).map (·.data) = some [] := by
      rcases hj with rfl | rfl <;> decide +kernel
    rw [hf, Option.map_some, Option.some.injEq] at this
    exact this

/-- Two cycles; bytes are written to both modules, and a value of the wrong kind to the digital
outputs. -/
def exFailBefore : List LateNetEv :=
  [.cycle, .cycle, .write 1 [1#8], .write 2 [8#8, 9#8], .write 2 [10#8],
   .other (.setOutput ⟨0, 0⟩ (.bytes []))]

theorem net_frun_ev {oc : Bool} {cfg : CouplerConfig} {w : Wiring} (j : Nat) (s : LateNet)
    (evs : List LateNetEv) (rest : List LateNetFailEv) :
    s.frun oc cfg w (evs.map .ev ++ rest) = (s.run oc w evs).frun oc cfg w rest ∧
    s.failLost oc cfg w j (evs.map .ev ++ rest) = (s.run oc w evs).failLost oc cfg w j rest := by
  induction evs generalizing s with
  | nil => exact ⟨rfl, rfl⟩
  | cons e evs ih => exact ih (s.step oc w e)

def exFailImage : List Word := [0#16, 0x0080#16, 0#16, 0#16, 0#16, 0x0080#16, 0#16, 0#16, 0#16]

/-- The failing cycle loses the first segments of both modules. -/
theorem exFailNet_fails :
    let s := exFailNet.run true exWires exFailBefore
    s.fstep true exDuo exWires .fail =
      { s with c := (s.c.next true (List.replicate 8 0#16) exFailImage).1, cycles := 3 } ∧
    s.failLoses true exDuo exWires 1 .fail = [[1#8]] ∧
    s.failLoses true exDuo exWires 2 .fail = [[8#8, 9#8]] := by
  have hn : ((exFailNet.run true exWires exFailBefore).c.next true (List.replicate 8 0#16)
      exFailImage).2 = .err .channelValue := by decide +kernel
  have hi : (exFailNet.run true exWires exFailBefore).inp = List.replicate 8 0#16 := by decide +kernel
  have hk : (exFailNet.run true exWires exFailBefore).kept = exFailImage := by decide +kernel
  have hc : (exFailNet.run true exWires exFailBefore).cycles = 2 := by decide +kernel
  have hq : (exFailNet.run true exWires exFailBefore).queue 1 = [[1#8]] ∧
      (exFailNet.run true exWires exFailBefore).queue 2 = [[8#8, 9#8], [10#8]] := by decide +kernel
  have hd : Decodable exDuo (List.replicate 8 0#16) exFailImage := exDuo_decodable
  have ha : ∀ j ∈ exWires.modules, (exFailNet.run true exWires exFailBefore).Acknowledged exWires j := by
    intro j hj i o h1 h2
    rw [hi] at h1
    rw [hk] at h2
    simp only [exWires, List.mem_cons, List.not_mem_nil, or_false] at hj
    have e1 : (inFrame (exWires.wire j).len (exWires.wire j).oi (List.replicate 8 0#16)).map
        (·.txCntAck) = some 0 := by
      rcases hj with rfl | rfl <;> decide +kernel
    have e2 : (outFrame (exWires.wire j).len (exWires.wire j).oo exFailImage).map (·.txCnt) =
        some 0 := by
      rcases hj with rfl | rfl <;> decide +kernel
    rw [h1, Option.map_some, Option.some.injEq] at e1
    rw [h2, Option.map_some, Option.some.injEq] at e2
    omega
  generalize exFailNet.run true exWires exFailBefore = s at *
  refine ⟨?_, ?_, ?_⟩
  · simp only [LateNet.fstep, hi, hk]
    split
    · rename_i c' e hn'
      rw [if_pos (by rw [hi, hk]; exact hd), hc, hn']
      simp only [Nat.lt_irrefl, if_false]
    · rename_i hx
      exact absurd (show s.c.next true (List.replicate 8 0#16) exFailImage =
        ((s.c.next true (List.replicate 8 0#16) exFailImage).1, .err .channelValue)
        from Prod.ext rfl hn) (hx _ _)
  · simp only [LateNet.failLoses, hq.1]
    rw [if_pos ⟨by omega, ha 1 (by decide), by rw [hi, hk]; exact hd, .channelValue,
      by rw [hi, hk]; exact hn⟩]
    rfl
  · simp only [LateNet.failLoses, hq.2]
    rw [if_pos ⟨by omega, ha 2 (by decide), by rw [hi, hk]; exact hd, .channelValue,
      by rw [hi, hk]; exact hn⟩]
    rfl

/-- The whole schedule; then the images of the first two cycles arrive. -/
def exFailEvs : List LateNetFailEv :=
  exFailBefore.map .ev ++ (.fail :: List.map .ev [.deliver, .deliver])

theorem exFailEvs_run :
    let s := exFailNet.run true exWires exFailBefore
    exFailNet.frun true exDuo exWires exFailEvs = LateNet.run true exWires
        { s with c := (s.c.next true (List.replicate 8 0#16) exFailImage).1, cycles := 3 }
        [.deliver, .deliver] ∧
    exFailNet.failLost true exDuo exWires 1 exFailEvs = [[1#8]] ∧
    exFailNet.failLost true exDuo exWires 2 exFailEvs = [[8#8, 9#8]] := by
  intro s
  obtain ⟨h1, h2⟩ := net_frun_ev (oc := true) (cfg := exDuo) (w := exWires) 1 exFailNet exFailBefore
    (.fail :: List.map .ev [.deliver, .deliver])
  obtain ⟨-, h3⟩ := net_frun_ev (oc := true) (cfg := exDuo) (w := exWires) 2 exFailNet exFailBefore
    (.fail :: List.map .ev [.deliver, .deliver])
  obtain ⟨h4, h5, h6⟩ := exFailNet_fails
  rw [exFailEvs, h1, h2, h3]
  refine ⟨?_, ?_, ?_⟩
  · rw [LateNet.frun, List.foldl_cons, h4]
    rfl
  · rw [LateNet.failLost, h5]
    rfl
  · rw [LateNet.failLost, h6]
    rfl

theorem exFailEvs_good : LateNet.OnlyUndecodable true exDuo (LateNetFailEv.others exFailEvs) := by
  intro pi po h
  simp [exFailEvs, exFailBefore, LateNetFailEv.others] at h

example := C152_net_sent true exDuo exWires exFailNet exFailNet_initial exFailEvs exFailEvs_good 2
  (by decide)

example := C152_net_received true exDuo exWires exFailNet exFailNet_initial exFailEvs exFailEvs_good
  (by rw [exFailEvs_run.1]; decide +kernel) 2 (by decide)

example := C152_net_early true exDuo exWires exFailNet exFailNet_initial [.ev .cycle]
  (fun pi po h => by simp [LateNetFailEv.others] at h)
  (by show (exFailNet.run true exWires [.cycle]).cycles < 2
      decide +kernel) 2 (by decide)

def exFailInputs : List (List Word) :=
  let last := [0#16, 0#16, 0#16, 0#16, 0x0020#16, 0#16, 0#16, 0#16]
  [List.replicate 8 0#16, last, last, last]

example := C152_net_progress true exDuo exWires exFailNet exFailNet_initial exFailEvs exFailEvs_good
  (by rw [exFailEvs_run.1]; decide +kernel) (by rw [exFailEvs_run.1]; decide +kernel) exFailInputs
  (by
    rw [exFailEvs_run.1]
    exact ⟨by decide +kernel, ⟨_, rfl⟩, by decide +kernel, ⟨_, rfl⟩, by decide +kernel, ⟨_, rfl⟩,
      by decide +kernel, ⟨_, rfl⟩, trivial⟩)
  2 (by decide) (by rw [exFailEvs_run.1]; decide +kernel)

/-- The device of the second module gets the second of the two segments written to it, that of the first
one gets nothing. -/
example :
    (((exFailNet.frun true exDuo exWires exFailEvs).rounds true exWires exFailInputs).line 2).received =
      [10#8] ∧
    (((exFailNet.frun true exDuo exWires exFailEvs).rounds true exWires exFailInputs).line 1).received =
      [] := by
  rw [exFailEvs_run.1]
  decide +kernel

end Ur20
