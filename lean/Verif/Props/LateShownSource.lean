import Verif.Spec.LateShownSource
import Verif.Props.LateShown
import Verif.Props.LateDropSource

/-!
# C157 for the translated source: what inputs() and outputs() show with failing cycles and late and lost images
-/

namespace Ur20

open Spec

open Src.ur20_fbc_mod_tcp (embed)

open scoped List

namespace Src

/-- The system with the translated source and the one with the model are in the same state. -/
structure SameShown (s : Spec.Src.LateShown) (t : Spec.LateShown) : Prop where
  station : SameStation s.station t.station
  seen : s.seen = t.seen

theorem srcStep_eq {s : Spec.Src.LateNet} {t : Spec.LateNet} (h : SameLate s t) (oc : Bool)
    (cfg : CouplerConfig) (w : Wiring) (ord : Imp.Orders) (fill : Nat → Byte) (x : SeenImages)
    (e : LateStationEv) : x.srcStep oc cfg w ord fill s e = x.step oc cfg w t e := by
  cases e with
  | restart pi => rfl
  | set j v => rfl
  | ev e =>
    cases e with
    | sample pi =>
      simp only [SeenImages.srcStep, SeenImages.step]
      by_cases hs : t.Shows w pi
      · rw [if_pos hs, if_pos ((h.shows w pi).2 hs)]
      · rw [if_neg hs, if_neg fun g => hs ((h.shows w pi).1 g)]
    | cycle =>
      simp only [SeenImages.srcStep, SeenImages.step]
      rw [(same_next h.c oc ord fill s.inp s.kept).1, h.inp, h.kept]
      cases (t.c.next oc t.inp t.kept).2 <;> rfl
    | failing pi po =>
      simp only [SeenImages.srcStep, SeenImages.step]
      rw [(same_next h.c oc ord fill pi po).1]
      cases (t.c.next oc pi po).2 <;> rfl
    | _ => rfl

theorem SameShown.step {s : Spec.Src.LateShown} {t : Spec.LateShown} (h : SameShown s t)
    (oc : Bool) (cfg : CouplerConfig) (w : Wiring) (hw : w.modules ≠ []) (ord : Imp.Orders)
    (fill : Nat → Byte) {c d} (hc : ∃ i, c = embed i ∧ Imp.SameC i d) (e : LateStationEv) :
    SameShown (s.step oc cfg w ord fill c e) (t.step oc cfg w d e) :=
  ⟨h.station.fstep oc cfg w hw ord fill hc e, by
    simp only [Spec.Src.LateShown.step, Spec.LateShown.step, h.seen]
    exact srcStep_eq h.station.net oc cfg w ord fill t.seen e⟩

theorem SameShown.run {oc : Bool} {cfg : CouplerConfig} {w : Wiring} (hw : w.modules ≠ [])
    (ord : Nat → Imp.Orders) (fill : Nat → Nat → Byte) {c d} (hc : ∃ i, c = embed i ∧ Imp.SameC i d)
    (evs : List LateStationEv) :
    ∀ (k : Nat) {s : Spec.Src.LateShown} {t : Spec.LateShown}, SameShown s t →
      SameShown (s.run oc cfg w ord fill c k evs) (t.run oc cfg w d evs) := by
  induction evs with
  | nil => intro k s t h; exact h
  | cons e evs ih => intro k s t h; exact ih (k + 1) (h.step oc cfg w hw (ord k) (fill k) hc e)

/-- Couplers in the same state show the same. -/
theorem same_shown {c : ur20_fbc_mod_tcp.Coupler} {d : Ur20.Coupler}
    (h : ∃ i, c = embed i ∧ Imp.SameC i d) (oc : Bool) :
    ur20_fbc_mod_tcp.Coupler.inputs oc c = .ok d.inputs ∧
      ur20_fbc_mod_tcp.Coupler.outputs oc c = .ok d.outputs := by
  obtain ⟨i, rfl, hs⟩ := h
  constructor
  · show Res.ok i.inValues = _
    rw [hs.inValues]; rfl
  · show Res.ok i.outValues = _
    rw [hs.outValues]; rfl

end Src

section

variable (oc : Bool) (cfg : CouplerConfig) (w : Wiring) (hw : w.modules ≠ [])
  (ord : Nat → Imp.Orders) (fill : Nat → Nat → Byte) (s : Spec.Src.LateNet) (h : s.Started oc cfg w)
  (evs : List LateStationEv)

include hw h

/-- C157 for the translated source: what `inputs()` and `outputs()` return after any schedule. -/
theorem C157_source_shown (hu : LateStation.SmallImages oc cfg evs) :
    let r := (Spec.Src.LateShown.start s).run oc cfg w ord fill s.c 0 evs
    ∃ ins outs, Src.ur20_fbc_mod_tcp.Coupler.inputs oc r.station.net.c = .ok ins ∧
      Src.ur20_fbc_mod_tcp.Coupler.outputs oc r.station.net.c = .ok outs ∧
      (∀ pi, r.seen.lastIn = some pi → ShowsInputs cfg ins pi) ∧ (r.seen.lastIn = none → ins = []) ∧
      (∀ po, r.seen.lastOut = some po → ShowsOutputs cfg outs po) ∧ (r.seen.lastOut = none → outs = []) := by
  intro r
  obtain ⟨d, hd, hs⟩ := Src.late_started h
  have hr : Src.SameShown r _ := Src.SameShown.run (oc := oc) (cfg := cfg) hw ord fill hs.c evs 0
    (s := Spec.Src.LateShown.start s) (t := LateShown.start d)
    ⟨⟨hs, rfl⟩, by simp only [Spec.Src.LateShown.start, LateShown.start, hs.inp]⟩
  obtain ⟨g1, g2⟩ := C157_inputs oc cfg w hw d hd evs hu
  obtain ⟨g3, g4⟩ := C157_outputs oc cfg w hw d hd evs hu
  obtain ⟨a1, a2⟩ := Src.same_shown hr.station.net.c oc
  refine ⟨_, _, a1, a2, ?_⟩
  rw [hr.seen]
  exact ⟨g1, g2, g3, g4⟩

/-- C157 for the translated source, a successful cycle. -/
theorem C157_source_cycle (hu : LateStation.SmallImages oc cfg evs) (img : List Word) :
    let r := (Spec.Src.LateShown.start s).run oc cfg w ord fill s.c 0 evs
    (Spec.Src.call oc r.station.net.c (ord evs.length) (fill evs.length)
      (.next r.station.net.inp r.station.net.kept)).2 = .next (.ok img) →
    let r' := r.step oc cfg w (ord evs.length) (fill evs.length) s.c (.ev .cycle)
    ∃ ins outs, Src.ur20_fbc_mod_tcp.Coupler.inputs oc r'.station.net.c = .ok ins ∧
      Src.ur20_fbc_mod_tcp.Coupler.outputs oc r'.station.net.c = .ok outs ∧
      ShowsInputs cfg ins r.station.net.inp ∧ ShowsOutputs cfg outs r.station.net.kept ∧
      r'.station.net.kept = img := by
  intro r hn r'
  obtain ⟨d, hd, hs⟩ := Src.late_started h
  have hr : Src.SameShown r _ := Src.SameShown.run (oc := oc) (cfg := cfg) hw ord fill hs.c evs 0
    (s := Spec.Src.LateShown.start s) (t := LateShown.start d)
    ⟨⟨hs, rfl⟩, by simp only [Spec.Src.LateShown.start, LateShown.start, hs.inp]⟩
  have hr' : Src.SameShown r' _ := hr.step oc cfg w hw (ord evs.length) (fill evs.length) hs.c (.ev .cycle)
  rw [(Src.same_next hr.station.net.c oc _ _ _ _).1, hr.station.net.inp, hr.station.net.kept] at hn
  obtain ⟨g1, g2, g3⟩ := C157_cycle oc cfg w hw d hd evs hu img (by injection hn)
  obtain ⟨a1, a2⟩ := Src.same_shown hr'.station.net.c oc
  refine ⟨_, _, a1, a2, ?_⟩
  rw [hr'.station.net.kept, hr.station.net.inp, hr.station.net.kept]
  exact ⟨g1, g2, g3⟩

/-- C157 for the translated source, progress. -/
theorem C157_source_latest (hu : LateStation.SmallImages oc cfg evs) (pi img : List Word) :
    let r := (Spec.Src.LateShown.start s).run oc cfg w ord fill s.c 0 evs
    r.station.net.ins = [] → r.station.net.Shows w pi →
    (Spec.Src.call oc r.station.net.c (ord (evs.length + 2)) (fill (evs.length + 2))
      (.next pi r.station.net.kept)).2 = .next (.ok img) →
    let r' := r.run oc cfg w ord fill s.c evs.length (LateStation.round pi)
    ∃ ins, Src.ur20_fbc_mod_tcp.Coupler.inputs oc r'.station.net.c = .ok ins ∧ ShowsInputs cfg ins pi := by
  intro r hi hsh hn r'
  obtain ⟨d, hd, hs⟩ := Src.late_started h
  have hr : Src.SameShown r _ := Src.SameShown.run (oc := oc) (cfg := cfg) hw ord fill hs.c evs 0
    (s := Spec.Src.LateShown.start s) (t := LateShown.start d)
    ⟨⟨hs, rfl⟩, by simp only [Spec.Src.LateShown.start, LateShown.start, hs.inp]⟩
  have hr' : Src.SameShown r' _ :=
    Src.SameShown.run (oc := oc) (cfg := cfg) hw ord fill hs.c (LateStation.round pi) evs.length hr
  rw [(Src.same_next hr.station.net.c oc _ _ _ _).1, hr.station.net.kept] at hn
  exact ⟨_, (Src.same_shown hr'.station.net.c oc).1, C157_latest oc cfg w hw d hd evs hu pi img
    (by rw [← hr.station.net.ins]; exact hi) ((hr.station.net.shows w pi).1 hsh) (by injection hn)⟩

/-- C157 for the translated source, order. -/
theorem C157_source_order (evs' : List LateStationEv) :
    let r := (Spec.Src.LateShown.start s).run oc cfg w ord fill s.c 0 evs
    let r' := r.run oc cfg w ord fill s.c evs.length evs'
    r.seen.samples[r.seen.inp]? = some r.station.net.inp ∧ r.seen.samples <+: r'.seen.samples ∧
      r.seen.inp ≤ r'.seen.inp := by
  intro r r'
  obtain ⟨d, hd, hs⟩ := Src.late_started h
  have hr : Src.SameShown r _ := Src.SameShown.run (oc := oc) (cfg := cfg) hw ord fill hs.c evs 0
    (s := Spec.Src.LateShown.start s) (t := LateShown.start d)
    ⟨⟨hs, rfl⟩, by simp only [Spec.Src.LateShown.start, LateShown.start, hs.inp]⟩
  have hr' : Src.SameShown r' _ :=
    Src.SameShown.run (oc := oc) (cfg := cfg) hw ord fill hs.c evs' evs.length hr
  rw [hr'.seen, hr.seen, hr.station.net.inp]
  exact C157_order oc cfg w d hd evs evs'

/-- C157 for the translated source, nothing is invented. -/
theorem C157_source_used (pi : List Word) :
    let r := (Spec.Src.LateShown.start s).run oc cfg w ord fill s.c 0 evs
    r.seen.lastIn = some pi → pi ∈ r.seen.samples ∨ ∃ po, .ev (.failing pi po) ∈ evs := by
  intro r hl
  obtain ⟨d, hd, hs⟩ := Src.late_started h
  have hr : Src.SameShown r _ := Src.SameShown.run (oc := oc) (cfg := cfg) hw ord fill hs.c evs 0
    (s := Spec.Src.LateShown.start s) (t := LateShown.start d)
    ⟨⟨hs, rfl⟩, by simp only [Spec.Src.LateShown.start, LateShown.start, hs.inp]⟩
  rw [hr.seen] at hl ⊢
  exact C157_used oc cfg w d hd evs pi hl

end

section

variable (ord : Nat → Imp.Orders) (fill : Nat → Nat → Byte)

/-- The example of `Props/LateShown.lean` with a coupler of the translated source. -/
def exInComSource (c : Src.ur20_fbc_mod_tcp.Coupler) : Spec.Src.LateNet where
  c := c
  kept := (exInComNet exInComCoupler).kept
  inp := (exInComNet exInComCoupler).inp
  ins := []
  outs := []
  out := (exInComNet exInComCoupler).out
  cycles := 0
  line := (exInComNet exInComCoupler).line

/-- There is such a coupler … -/
theorem exInCom_source : ∃ c, Src.ur20_fbc_mod_tcp.Coupler.new true exInCom = .ok c := by
  have hs := Imp.new_same exInCom
  rw [exInComCoupler_new] at hs
  obtain ⟨i, h1, -⟩ := hs
  rw [Src.ur20_fbc_mod_tcp.new_eq, h1]
  exact ⟨_, rfl⟩

theorem exInComSource_started {c : Src.ur20_fbc_mod_tcp.Coupler}
    (h : Src.ur20_fbc_mod_tcp.Coupler.new true exInCom = .ok c) :
    (exInComSource c).Started true exInCom exInComWires where
  c := h
  distinct := by decide
  serial := by
    intro j hj
    simp only [exInComWires, List.mem_cons, List.not_mem_nil, or_false] at hj
    subst hj
    exact ⟨List.replicate 10 0, ⟨rfl, rfl, rfl, rfl⟩, rfl, by decide, by decide, by decide, by decide,
      by decide⟩
  kept_bytes := fun j _ => exInCom_outputs j
  kept := rfl
  out := (exInComNet_started exInComCoupler_new).out
  inp := (exInComNet_started exInComCoupler_new).inp
  ins := rfl
  outs := rfl
  cycles := rfl
  devices := (exInComNet_started exInComCoupler_new).devices
  logs := (exInComNet_started exInComCoupler_new).logs

theorem exInComSource_same {c : Src.ur20_fbc_mod_tcp.Coupler}
    (h : Src.ur20_fbc_mod_tcp.Coupler.new true exInCom = .ok c) (n : Nat) :
    Src.SameShown ((Spec.Src.LateShown.start (exInComSource c)).run true exInCom exInComWires ord fill
      (exInComSource c).c 0 (exInComEvs.take n)) (exInComRun n) := by
  obtain ⟨d, hd, hs⟩ := Src.late_started (exInComSource_started h)
  have hc : d.c = exInComCoupler := by
    have := hd.c
    rw [exInComCoupler_new] at this
    exact (Res.ok.inj this).symm
  have hc' : ∃ i, c = embed i ∧ Imp.SameC i exInComCoupler := by
    rw [← hc]
    exact hs.c
  exact Src.SameShown.run (by decide) ord fill hc' (exInComEvs.take n) 0
    ⟨⟨⟨hc', rfl, rfl, rfl, rfl, rfl, rfl, rfl⟩, rfl⟩, rfl⟩

/-- … and `inputs()` shows the image of the failing cycle. -/
example (c : Src.ur20_fbc_mod_tcp.Coupler) (h : Src.ur20_fbc_mod_tcp.Coupler.new true exInCom = .ok c) :
    ∃ ins, Src.ur20_fbc_mod_tcp.Coupler.inputs true ((Spec.Src.LateShown.start (exInComSource c)).run true
      exInCom exInComWires ord fill c 0 (exInComEvs.take 8)).station.net.c = .ok ins ∧
      ShowsInputs exInCom ins (exInComImage 8#16) := by
  obtain ⟨ins, outs, g1, -, g2, -⟩ := C157_source_shown true exInCom exInComWires (by decide) ord fill
    (exInComSource c) (exInComSource_started h) (exInComEvs.take 8) (exInComEvs_small 8)
  exact ⟨ins, g1, g2 _ ((congrArg SeenImages.lastIn (exInComSource_same ord fill h 8).seen).trans
    exInComRun_failed.1)⟩

/-- The inputs of a round. -/
example (c : Src.ur20_fbc_mod_tcp.Coupler) (h : Src.ur20_fbc_mod_tcp.Coupler.new true exInCom = .ok c) :
    ∃ ins, Src.ur20_fbc_mod_tcp.Coupler.inputs true (((Spec.Src.LateShown.start (exInComSource c)).run true
      exInCom exInComWires ord fill c 0 (exInComEvs.take 5)).run true exInCom exInComWires ord fill c 5
      (LateStation.round (exInComImage 4#16))).station.net.c = .ok ins ∧
      ShowsInputs exInCom ins (exInComImage 4#16) := by
  have hr := exInComSource_same ord fill h 5
  obtain ⟨g1, g2, g3, -⟩ := exInComRun_idle
  cases hn : ((exInComRun 5).station.net.c.next true (exInComImage 4#16)
    (exInComRun 5).station.net.kept).2 with
  | ok img =>
    refine C157_source_latest true exInCom exInComWires (by decide) ord fill (exInComSource c)
      (exInComSource_started h) (exInComEvs.take 5) (exInComEvs_small 5) _ img
      (hr.station.net.ins.trans g1) ((hr.station.net.shows exInComWires _).2 g2) ?_
    rw [(Src.same_next hr.station.net.c true _ _ _ _).1, hr.station.net.kept, hn]
  | err e => rw [hn] at g3; cases g3
  | panic => rw [hn] at g3; cases g3

/-- A cycle. -/
example (c : Src.ur20_fbc_mod_tcp.Coupler) (h : Src.ur20_fbc_mod_tcp.Coupler.new true exInCom = .ok c) :
    ∃ ins, Src.ur20_fbc_mod_tcp.Coupler.inputs true (((Spec.Src.LateShown.start (exInComSource c)).run true
      exInCom exInComWires ord fill c 0 (exInComEvs.take 5)).step true exInCom exInComWires (ord 5) (fill 5)
      c (.ev .cycle)).station.net.c = .ok ins ∧
      ShowsInputs exInCom ins (exInComRun 5).station.net.inp := by
  have hr := exInComSource_same ord fill h 5
  obtain ⟨-, -, -, g⟩ := exInComRun_idle
  cases hn : ((exInComRun 5).station.net.c.next true (exInComRun 5).station.net.inp
    (exInComRun 5).station.net.kept).2 with
  | ok img =>
    obtain ⟨ins, -, g1, -, g2, -⟩ := C157_source_cycle true exInCom exInComWires (by decide) ord fill
      (exInComSource c) (exInComSource_started h) (exInComEvs.take 5) (exInComEvs_small 5) img (by
        rw [(Src.same_next hr.station.net.c true _ _ _ _).1]
        rw [hr.station.net.inp, hr.station.net.kept, hn])
    exact ⟨ins, g1, hr.station.net.inp ▸ g2⟩
  | err e => rw [hn] at g; cases g
  | panic => rw [hn] at g; cases g

example (c : Src.ur20_fbc_mod_tcp.Coupler) (h : Src.ur20_fbc_mod_tcp.Coupler.new true exInCom = .ok c) :=
  C157_source_order true exInCom exInComWires (by decide) ord fill (exInComSource c)
    (exInComSource_started h) (exInComEvs.take 5) (exInComEvs.drop 5)

example (c : Src.ur20_fbc_mod_tcp.Coupler) (h : Src.ur20_fbc_mod_tcp.Coupler.new true exInCom = .ok c) :=
  C157_source_used true exInCom exInComWires (by decide) ord fill (exInComSource c)
    (exInComSource_started h) (exInComEvs.take 7) (exInComImage 1#16)
    ((congrArg SeenImages.lastIn (exInComSource_same ord fill h 7).seen).trans exInComRun_seen.2.1)

end

end Ur20
