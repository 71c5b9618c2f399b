import Verif.Spec.LateShown
import Verif.Props.LateDrop
import Verif.Props.LateWire
import Verif.Props.Shown

/-!
# C157: what inputs() and outputs() show with failing cycles and late and lost images
-/

namespace Ur20

open Spec Coupler

open scoped List

theorem call_outputs (oc : Bool) (c : Coupler) (op : COp) (h : ∀ pi po, op ≠ .next pi po) :
    (op.apply oc c).outputs = c.outputs := by
  cases op with
  | next pi po => exact (h pi po rfl).elim
  | setOutput a v =>
    simp only [COp.apply, setOutput]
    split <;> rfl
  | read n len =>
    simp only [COp.apply]
    split
    · rename_i r hr
      simp only [Coupler.read] at hr
      split at hr
      · rename_i p hp
        cases hq : p.read len with
        | ok q => rw [hq] at hr; cases hr; rfl
        | err e => rw [hq] at hr; cases hr
        | panic => rw [hq] at hr; cases hr
      · cases hr; rfl
    · rfl
  | write n buf =>
    simp only [COp.apply, writeBytes]
    split <;> rfl

/-- A cycle that can decode its image of the inputs shows it, even if it fails because of the image of
the outputs. -/
theorem showsInputs_next {oc : Bool} {cfg : CouplerConfig} {c : Coupler} (hr : ReachableFrom oc cfg c)
    {pi : List Word} (po : List Word) (hp : InputsPresent cfg pi) :
    ShowsInputs cfg (c.next oc pi po).1.inputs pi := by
  intro j t par o i hcfg ht
  obtain ⟨m, hm, hc⟩ := configured_at hr hcfg
  have hs : ¬ IsSerial m := by rw [isSerial_type hc]; exact ht
  obtain ⟨ins, h1⟩ := (decode_inputs hr pi).2 hp
  obtain ⟨inV, a2, a1⟩ := mapRes_getElem? h1 (infos_getElem? hm)
  have key : (c.next oc pi po).1.inputs[j]? = some inV := by
    have hi := inv_of_reachable hr
    rcases next_cases oc c pi po with ⟨e, g1, g2⟩ | ⟨g1, g2⟩ | ⟨ins', e, g1, g2, g3⟩ |
      ⟨ins', g1, g2, g3⟩ | ⟨ins', outs, g1, g2, g3, g4⟩ | ⟨ins', outs, st, rs, g1, g2, g3, g4⟩
    · rw [h1] at g1; cases g1
    · rw [h1] at g1; cases g1
    · rw [h1] at g1; cases g1; rw [g3]; exact a2
    · rw [h1] at g1; cases g1; rw [g3]; exact a2
    · rw [h1] at g1; cases g1; rw [g4]; exact a2
    · obtain ⟨inV', outV, st1, r, lt, d1, -, d3, d4, -⟩ := decoded_module hi g1 g2 hm
      rw [moduleStep_plain (hi.none hm.1 hs)] at d3
      cases d3
      rw [show moduleInput oc pi m _ = _ from a1] at d1
      cases d1
      exact d4
  obtain ⟨g1, g2⟩ := inputs_shown hc ht a1 key
  exact ⟨g1, g2⟩

theorem showsOutputs_next {oc : Bool} {cfg : CouplerConfig} {c : Coupler} (hr : ReachableFrom oc cfg c)
    {pi po : List Word} (hd : Decodable cfg pi po) :
    ShowsOutputs cfg (c.next oc pi po).1.outputs po :=
  fun j t par o i hcfg ht => C81_outputs oc cfg c hr pi po hd j t par o i hcfg ht

namespace Spec.LateShown

/-- What `inputs()` and `outputs()` show. -/
structure Good (oc : Bool) (cfg : CouplerConfig) (c : Coupler) (t : SeenImages) : Prop where
  reach : ReachableFrom oc cfg c
  some_in : ∀ pi, t.lastIn = some pi → ShowsInputs cfg c.inputs pi
  none_in : t.lastIn = none → c.inputs = []
  some_out : ∀ po, t.lastOut = some po → ShowsOutputs cfg c.outputs po
  none_out : t.lastOut = none → c.outputs = []

theorem Good.new {oc : Bool} {cfg : CouplerConfig} {c : Coupler} (h : Coupler.new cfg = .ok c) {t : SeenImages}
    (h1 : t.lastIn = none) (h2 : t.lastOut = none) : Good oc cfg c t := by
  obtain ⟨-, -, ms, -, hc⟩ := new_ok h
  subst hc
  exact ⟨⟨_, [], h, rfl⟩, fun pi hp => (by rw [h1] at hp; cases hp), fun _ => rfl,
    fun pi hp => (by rw [h2] at hp; cases hp), fun _ => rfl⟩

theorem Good.call {oc : Bool} {cfg : CouplerConfig} {c : Coupler} {t : SeenImages} (h : Good oc cfg c t)
    (op : COp) (hop : ∀ pi po, op ≠ .next pi po) {t' : SeenImages} (h1 : t'.lastIn = t.lastIn)
    (h2 : t'.lastOut = t.lastOut) : Good oc cfg (op.apply oc c) t' := by
  refine ⟨reachable_run h.reach [op], ?_, ?_, ?_, ?_⟩ <;>
    simp only [call_inputs oc c op hop, call_outputs oc c op hop, h1, h2]
  · exact h.some_in
  · exact h.none_in
  · exact h.some_out
  · exact h.none_out

theorem Good.keep {oc : Bool} {cfg : CouplerConfig} {c : Coupler} {t : SeenImages} (h : Good oc cfg c t)
    {t' : SeenImages} (h1 : t'.lastIn = t.lastIn) (h2 : t'.lastOut = t.lastOut) : Good oc cfg c t' :=
  ⟨h.reach, by rw [h1]; exact h.some_in, by rw [h1]; exact h.none_in, by rw [h2]; exact h.some_out,
    by rw [h2]; exact h.none_out⟩

theorem Good.step {oc : Bool} {cfg : CouplerConfig} {w : Wiring} (hw : w.modules ≠ []) {c0 : Coupler}
    (h0 : Coupler.new cfg = .ok c0) {s : LateShown} (h : Good oc cfg s.station.net.c s.seen)
    (e : LateStationEv) (he : LateStation.SmallImages oc cfg [e]) :
    Good oc cfg (s.step oc cfg w c0 e).station.net.c (s.step oc cfg w c0 e).seen := by
  obtain ⟨⟨⟨c, kept, inp, ins, outs, out, cycles, line⟩, stamps⟩, t⟩ := s
  simp only at h
  cases e with
  | restart pi => exact Good.new h0 rfl rfl
  | set j v =>
    simp only [LateShown.step, LateStation.fstep, LateStation.step]
    split
    · exact h.call (.setOutput ⟨j, 0⟩ v) (by simp) rfl rfl
    · exact h
  | ev e =>
    cases e with
    | write j buf =>
      simp only [LateShown.step, LateStation.fstep, LateStation.step, LateNet.step]
      split
      · exact h.call (.write j buf) (by simp) rfl rfl
      · exact h
    | read j n =>
      simp only [LateShown.step, LateStation.fstep, LateStation.step, LateNet.step]
      split
      · have key := h.call (.read j n) (by simp) (t' := t) rfl rfl
        rw [Net.read_apply] at key
        cases hr : c.read j n with
        | ok p => obtain ⟨c', b⟩ := p; rw [hr] at key; cases b <;> exact key
        | err e => exact h
        | panic => exact h
      · exact h
    | other op =>
      simp only [LateShown.step, LateStation.fstep, LateStation.step, LateNet.step]
      split
      · rename_i ho
        obtain ⟨j, hj⟩ := List.exists_mem_of_ne_nil _ hw
        exact h.call op (fun pi po hop => by subst hop; exact ho j hj) rfl rfl
      · exact h
    | sample pi =>
      simp only [LateShown.step, LateStation.fstep, LateStation.step, LateNet.step, SeenImages.step]
      split <;> exact h.keep rfl rfl
    | arrive =>
      simp only [LateShown.step, LateStation.fstep, LateStation.step, LateNet.step, SeenImages.step]
      cases ins <;> cases hi : t.ins <;> exact h.keep rfl rfl
    | loseIn n => exact h.keep rfl rfl
    | cycle =>
      simp only [LateShown.step, LateStation.fstep, LateStation.step, LateNet.step, SeenImages.step]
      rcases hn : c.next oc inp kept with ⟨c', r⟩
      cases r with
      | ok img =>
        have hr := reachable_run h.reach [.next inp kept]
        have h1 : ShowsInputs cfg c'.inputs inp := C70_inputs oc cfg c h.reach inp kept img c' hn
        have h2 : ShowsOutputs cfg c'.outputs kept := C71_outputs oc cfg c h.reach inp kept img c' hn
        simp only [runC, List.foldl, COp.apply, hn] at hr
        exact ⟨hr, fun _ hp => (Option.some.inj hp) ▸ h1, fun hp => (by cases hp),
          fun _ hp => (Option.some.inj hp) ▸ h2, fun hp => (by cases hp)⟩
      | err e => exact h
      | panic => exact h
    | failing pi po =>
      simp only [LateShown.step, LateStation.fstep, LateNet.step, SeenImages.step]
      have hsm := he pi po List.mem_cons_self
      rcases hn : c.next oc pi po with ⟨c', r⟩
      cases r with
      | ok img => exact h
      | panic => exact h
      | err e =>
        have hr := reachable_run h.reach [.next pi po]
        simp only [runC, List.foldl, COp.apply, hn] at hr
        have hin : InputsPresent cfg pi → ShowsInputs cfg c'.inputs pi := fun hp => by
          have := showsInputs_next h.reach po hp
          rwa [hn] at this
        have hout : Decodable cfg pi po → ShowsOutputs cfg c'.outputs po := fun hp => by
          have := showsOutputs_next h.reach hp
          rwa [hn] at this
        have hund : ¬ Decodable cfg pi po → c'.outputs = c.outputs ∧
            (¬ InputsPresent cfg pi → c' = c) := fun hp => by
          have := C78_undecodable oc cfg c h.reach pi po (hsm hp) hp
          rw [hn] at this
          exact this.2.2
        refine ⟨hr, fun p hp => ?_, fun hp => ?_, fun p hp => ?_, fun hp => ?_⟩
        · simp only at hp
          by_cases hI : InputsPresent cfg pi
          · rw [if_pos hI] at hp; cases hp; exact hin hI
          · rw [if_neg hI] at hp
            rw [show _ = c from (hund fun h => hI h.1).2 hI]
            exact h.some_in p hp
        · simp only at hp
          by_cases hI : InputsPresent cfg pi
          · rw [if_pos hI] at hp; cases hp
          · rw [if_neg hI] at hp
            rw [show _ = c from (hund fun h => hI h.1).2 hI]
            exact h.none_in hp
        · simp only at hp
          by_cases hI : Decodable cfg pi po
          · rw [if_pos hI] at hp; cases hp; exact hout hI
          · rw [if_neg hI] at hp
            rw [show c'.outputs = _ from (hund hI).1]
            exact h.some_out p hp
        · simp only at hp
          by_cases hI : Decodable cfg pi po
          · rw [if_pos hI] at hp; cases hp
          · rw [if_neg hI] at hp
            rw [show c'.outputs = _ from (hund hI).1]
            exact h.none_out hp
    | again => exact h
    | deliver =>
      simp only [LateShown.step, LateStation.fstep, LateStation.step, LateNet.step, SeenImages.step]
      cases outs <;> exact h
    | loseOut n => exact h
    | take j =>
      simp only [LateShown.step, LateStation.fstep, LateStation.step, LateNet.step, SeenImages.step]
      repeat' split
      all_goals exact h
    | post j seg =>
      simp only [LateShown.step, LateStation.fstep, LateStation.step, LateNet.step, SeenImages.step]
      repeat' split
      all_goals exact h
    | hide j =>
      simp only [LateShown.step, LateStation.fstep, LateStation.step, LateNet.step, SeenImages.step]
      repeat' split
      all_goals exact h

theorem Good.run {oc : Bool} {cfg : CouplerConfig} {w : Wiring} (hw : w.modules ≠ []) {c0 : Coupler}
    (h0 : Coupler.new cfg = .ok c0) (evs : List LateStationEv) (he : LateStation.SmallImages oc cfg evs)
    {s : LateShown} (h : Good oc cfg s.station.net.c s.seen) :
    Good oc cfg (s.run oc cfg w c0 evs).station.net.c (s.run oc cfg w c0 evs).seen := by
  induction evs generalizing s with
  | nil => exact h
  | cons e evs ih =>
    refine ih (fun pi po hm => he pi po (List.mem_cons_of_mem _ hm))
      (h.step hw h0 e fun pi po hm => he pi po ?_)
    simp only [List.mem_cons, List.not_mem_nil, or_false] at hm
    rw [hm]
    exact List.mem_cons_self

/-- The numbers of the images. -/
structure Numbered (s : LateNet) (t : SeenImages) : Prop where
  inp : t.samples[t.inp]? = some s.inp
  ins : t.ins.map (t.samples[·]?) = s.ins.map some
  order : (t.inp :: t.ins).Pairwise (· < ·)
  below : ∀ n ∈ t.inp :: t.ins, n < t.samples.length

theorem Numbered.start (s : LateNet) (h : s.ins = []) : Numbered s (.start s.inp) :=
  ⟨rfl, by rw [h]; rfl, by simp [SeenImages.start], by simp [SeenImages.start]⟩

theorem Numbered.keep {s s' : LateNet} {t t' : SeenImages} (h : Numbered s t) (h1 : s'.inp = s.inp)
    (h2 : s'.ins = s.ins) (h3 : t'.samples = t.samples) (h4 : t'.inp = t.inp) (h5 : t'.ins = t.ins) :
    Numbered s' t' ∧ t.samples <+: t'.samples ∧ t.inp ≤ t'.inp := by
  refine ⟨⟨?_, ?_, ?_, ?_⟩, ?_, ?_⟩
  · rw [h1, h3, h4]; exact h.inp
  · rw [h2, h3, h5]; exact h.ins
  · rw [h4, h5]; exact h.order
  · rw [h3, h4, h5]; exact h.below
  · rw [h3]
  · exact h4.ge

/-- Further images do not change the numbers. -/
theorem getElem?_extended {l l' : List (List Word)} {n : Nat} (h : n < l.length) :
    (l ++ l')[n]? = l[n]? := List.getElem?_append_left h

theorem Numbered.step {oc : Bool} {cfg : CouplerConfig} {w : Wiring} {c0 : Coupler} {s : LateShown}
    (h : Numbered s.station.net s.seen) (e : LateStationEv) :
    Numbered (s.step oc cfg w c0 e).station.net (s.step oc cfg w c0 e).seen ∧
      s.seen.samples <+: (s.step oc cfg w c0 e).seen.samples ∧
      s.seen.inp ≤ (s.step oc cfg w c0 e).seen.inp := by
  obtain ⟨⟨⟨c, kept, inp, ins, outs, out, cycles, line⟩, stamps⟩, t⟩ := s
  simp only at h
  cases e with
  | restart pi =>
    simp only [LateShown.step, LateStation.fstep, LateStation.step, SeenImages.step, LateNet.restart]
    refine ⟨⟨by simp, rfl, by simp, by simp⟩, List.prefix_append _ _, ?_⟩
    exact (h.below t.inp List.mem_cons_self).le
  | set j v =>
    simp only [LateShown.step, LateStation.fstep, LateStation.step, SeenImages.step]
    split <;> exact h.keep rfl rfl rfl rfl rfl
  | ev e =>
    cases e with
    | sample pi =>
      simp only [LateShown.step, LateStation.fstep, LateStation.step, LateNet.step, SeenImages.step]
      split
      · refine ⟨⟨?_, ?_, ?_, ?_⟩, List.prefix_append _ _, le_rfl⟩
        · exact (getElem?_extended (h.below _ List.mem_cons_self)).trans h.inp
        · simp only [List.map_append, List.map_cons, List.map_nil]
          rw [List.getElem?_append_right le_rfl, Nat.sub_self]
          refine congrArg (· ++ [some pi]) (Eq.trans (List.map_congr_left fun n hn => ?_) h.ins)
          exact getElem?_extended (h.below n (List.mem_cons_of_mem _ hn))
        · simp only
          rw [← List.cons_append, List.pairwise_append]
          refine ⟨h.order, by simp, fun a ha b hb => ?_⟩
          simp only [List.mem_cons, List.not_mem_nil, or_false] at hb
          subst hb
          exact h.below a ha
        · intro n hn
          simp only [List.length_append, List.length_cons, List.length_nil]
          simp only at hn
          rw [← List.cons_append, List.mem_append] at hn
          rcases hn with hn | hn
          · exact Nat.lt_succ_of_lt (h.below n hn)
          · simp only [List.mem_cons, List.not_mem_nil, or_false] at hn
            subst hn
            simp
      · exact h.keep rfl rfl rfl rfl rfl
    | arrive =>
      simp only [LateShown.step, LateStation.fstep, LateStation.step, LateNet.step, SeenImages.step]
      have h1 := h.ins
      have h2 := h.order
      have h3 := h.below
      cases hi : t.ins with
      | nil =>
        cases ins with
        | nil => exact h.keep rfl rfl rfl rfl rfl
        | cons i ins => rw [hi] at h1; cases h1
      | cons n ns =>
        cases ins with
        | nil => rw [hi] at h1; cases h1
        | cons i ins =>
          rw [hi] at h1 h2 h3
          simp only [List.map_cons, List.cons.injEq] at h1
          refine ⟨⟨h1.1, h1.2, (List.pairwise_cons.1 h2).2, fun k hk => h3 k (List.mem_cons_of_mem _ hk)⟩,
            List.prefix_refl _, ((List.pairwise_cons.1 h2).1 n List.mem_cons_self).le⟩
    | loseIn n =>
      simp only [LateShown.step, LateStation.fstep, LateStation.step, LateNet.step, SeenImages.step]
      refine ⟨⟨h.inp, ?_, ?_, ?_⟩, List.prefix_refl _, le_rfl⟩
      · simp only
        rw [← List.eraseIdx_map, ← List.eraseIdx_map]
        exact congrArg (·.eraseIdx n) h.ins
      · exact h.order.sublist ((List.eraseIdx_sublist _ _).cons_cons _)
      · exact fun k hk => h.below k (((List.eraseIdx_sublist _ _).cons_cons _).subset hk)
    | cycle =>
      simp only [LateShown.step, LateStation.fstep, LateStation.step, LateNet.step, SeenImages.step]
      rcases hn : c.next oc inp kept with ⟨c', r⟩
      cases r <;> exact h.keep rfl rfl rfl rfl rfl
    | failing pi po =>
      simp only [LateShown.step, LateStation.fstep, LateNet.step, SeenImages.step]
      rcases hn : c.next oc pi po with ⟨c', r⟩
      cases r <;> exact h.keep rfl rfl rfl rfl rfl
    | _ =>
      simp only [LateShown.step, LateStation.fstep, LateStation.step, LateNet.step, SeenImages.step]
      repeat' split
      all_goals exact h.keep rfl rfl rfl rfl rfl

theorem Numbered.run {oc : Bool} {cfg : CouplerConfig} {w : Wiring} {c0 : Coupler} (evs : List LateStationEv)
    {s : LateShown} (h : Numbered s.station.net s.seen) :
    Numbered (s.run oc cfg w c0 evs).station.net (s.run oc cfg w c0 evs).seen ∧
      s.seen.samples <+: (s.run oc cfg w c0 evs).seen.samples ∧
      s.seen.inp ≤ (s.run oc cfg w c0 evs).seen.inp := by
  induction evs generalizing s with
  | nil => exact ⟨h, List.prefix_refl _, le_rfl⟩
  | cons e evs ih =>
    obtain ⟨h1, h2, h3⟩ := h.step (oc := oc) (cfg := cfg) (w := w) (c0 := c0) e
    obtain ⟨g1, g2, g3⟩ := ih h1
    exact ⟨g1, h2.trans g2, h3.trans g3⟩

/-- The last image a cycle has used is one of those numbered, or it was given to a failing cycle. -/
theorem used_step {oc : Bool} {cfg : CouplerConfig} {w : Wiring} {c0 : Coupler} {s : LateShown}
    (h : Numbered s.station.net s.seen) (e : LateStationEv) (pi : List Word)
    (hl : (s.step oc cfg w c0 e).seen.lastIn = some pi) :
    s.seen.lastIn = some pi ∨ pi ∈ s.seen.samples ∨ ∃ po, e = .ev (.failing pi po) := by
  cases e with
  | restart p => simp [LateShown.step, SeenImages.step] at hl
  | set j v => exact .inl hl
  | ev e =>
    cases e with
    | cycle =>
      simp only [LateShown.step, SeenImages.step] at hl
      split at hl
      · simp only [Option.some.injEq] at hl
        subst hl
        exact .inr (.inl (List.mem_of_getElem? h.inp))
      · exact .inl hl
    | failing p po =>
      simp only [LateShown.step, SeenImages.step] at hl
      split at hl
      · simp only at hl
        split at hl
        · cases hl
          exact .inr (.inr ⟨po, rfl⟩)
        · exact .inl hl
      · exact .inl hl
    | sample p =>
      simp only [LateShown.step, SeenImages.step] at hl
      split at hl <;> exact .inl hl
    | arrive =>
      simp only [LateShown.step, SeenImages.step] at hl
      split at hl <;> exact .inl hl
    | _ => exact .inl hl

theorem used_run {oc : Bool} {cfg : CouplerConfig} {w : Wiring} {c0 : Coupler} (evs : List LateStationEv)
    {s : LateShown} (h : Numbered s.station.net s.seen) (pi : List Word)
    (hl : (s.run oc cfg w c0 evs).seen.lastIn = some pi) :
    s.seen.lastIn = some pi ∨ pi ∈ (s.run oc cfg w c0 evs).seen.samples ∨
      ∃ po, .ev (.failing pi po) ∈ evs := by
  induction evs generalizing s with
  | nil => exact .inl hl
  | cons e evs ih =>
    obtain ⟨h1, h2, -⟩ := h.step (oc := oc) (cfg := cfg) (w := w) (c0 := c0) e
    have h3 := (h1.run (oc := oc) (cfg := cfg) (w := w) (c0 := c0) evs).2.1
    rcases ih h1 hl with g | g | ⟨po, g⟩
    · rcases used_step h e pi g with g | g | ⟨po, g⟩
      · exact .inl g
      · exact .inr (.inl ((h2.trans h3).subset g))
      · exact .inr (.inr ⟨po, by rw [g]; exact List.mem_cons_self⟩)
    · exact .inr (.inl g)
    · exact .inr (.inr ⟨po, List.mem_cons_of_mem _ g⟩)

end Spec.LateShown

section

variable (oc : Bool) (cfg : CouplerConfig) (w : Wiring) (hw : w.modules ≠ []) (s : LateNet)
  (h : s.Started cfg w) (evs : List LateStationEv)

include h

section

include hw

/-- C157, inputs: whatever is late or lost and whatever cycles fail, `inputs()` shows the values of the last
image of the inputs that a cycle since the last restart could decode, and nothing before the first such
cycle. -/
theorem C157_inputs (hu : LateStation.SmallImages oc cfg evs) :
    let r := (LateShown.start s).run oc cfg w s.c evs
    (∀ pi, r.seen.lastIn = some pi → ShowsInputs cfg r.station.net.c.inputs pi) ∧
    (r.seen.lastIn = none → r.station.net.c.inputs = []) :=
  have g := LateShown.Good.run (oc := oc) hw h.c evs hu (s := LateShown.start s) (.new h.c rfl rfl)
  ⟨g.some_in, g.none_in⟩

/-- C157, outputs: `outputs()` shows the values of the last image of the outputs that a cycle since the last
restart could decode together with its image of the inputs. -/
theorem C157_outputs (hu : LateStation.SmallImages oc cfg evs) :
    let r := (LateShown.start s).run oc cfg w s.c evs
    (∀ po, r.seen.lastOut = some po → ShowsOutputs cfg r.station.net.c.outputs po) ∧
    (r.seen.lastOut = none → r.station.net.c.outputs = []) :=
  have g := LateShown.Good.run (oc := oc) hw h.c evs hu (s := LateShown.start s) (.new h.c rfl rfl)
  ⟨g.some_out, g.none_out⟩

/-- C157, a successful cycle: `inputs()` shows the image the application has, `outputs()` that of the
previous successful cycle. -/
theorem C157_cycle (hu : LateStation.SmallImages oc cfg evs) (img : List Word) :
    let r := (LateShown.start s).run oc cfg w s.c evs
    (r.station.net.c.next oc r.station.net.inp r.station.net.kept).2 = .ok img →
    let r' := r.step oc cfg w s.c (.ev .cycle)
    ShowsInputs cfg r'.station.net.c.inputs r.station.net.inp ∧
    ShowsOutputs cfg r'.station.net.c.outputs r.station.net.kept ∧ r'.station.net.kept = img := by
  intro r hn r'
  have g : LateShown.Good oc cfg r.station.net.c r.seen :=
    LateShown.Good.run (oc := oc) hw h.c evs hu (s := LateShown.start s) (.new h.c rfl rfl)
  have g' : LateShown.Good oc cfg r'.station.net.c r'.seen :=
    g.step hw h.c (.ev .cycle) fun pi po hm => by simp at hm
  have e1 : r'.seen.lastIn = some r.station.net.inp ∧ r'.seen.lastOut = some r.station.net.kept := by
    simp only [r', LateShown.step, SeenImages.step, hn, and_self]
  refine ⟨g'.some_in _ e1.1, g'.some_out _ e1.2, ?_⟩
  rcases hx : r.station.net.c.next oc r.station.net.inp r.station.net.kept with ⟨c', x⟩
  rw [hx] at hn
  subst hn
  simp only [r', LateShown.step, LateStation.fstep, LateStation.step, LateNet.step, hx]

/-- C157, progress: when no image of the inputs is on the way any more, one round whose cycle succeeds shows
the current inputs. -/
theorem C157_latest (hu : LateStation.SmallImages oc cfg evs) (pi img : List Word) :
    let r := (LateShown.start s).run oc cfg w s.c evs
    r.station.net.ins = [] → r.station.net.Shows w pi →
    (r.station.net.c.next oc pi r.station.net.kept).2 = .ok img →
    ShowsInputs cfg (r.run oc cfg w s.c (LateStation.round pi)).station.net.c.inputs pi := by
  intro r hi hsh hn
  have g : LateShown.Good oc cfg r.station.net.c r.seen :=
    LateShown.Good.run (oc := oc) hw h.c evs hu (s := LateShown.start s) (.new h.c rfl rfl)
  refine (g.run hw h.c (LateStation.round pi) fun p po hm => ?_).some_in pi ?_
  · simp [LateStation.round] at hm
  have e1 : r.station.net.step oc w (.sample pi) = { r.station.net with ins := [pi] } := by
    simp [LateNet.step, hsh, hi]
  simp only [LateShown.run, LateStation.round, List.foldl_cons, List.foldl_nil, LateShown.step,
    LateStation.fstep, LateStation.step, e1]
  simp only [LateNet.step, SeenImages.step, hn]

end

/-- C157, order: the image of the inputs the application has is one of those the station has sent or the
application has read at a start, and the application never goes back to an older one. -/
theorem C157_order (evs' : List LateStationEv) :
    let r := (LateShown.start s).run oc cfg w s.c evs
    let r' := r.run oc cfg w s.c evs'
    r.seen.samples[r.seen.inp]? = some r.station.net.inp ∧ r.seen.samples <+: r'.seen.samples ∧
      r.seen.inp ≤ r'.seen.inp := by
  intro r r'
  have g := (LateShown.Numbered.start s h.ins).run (s := LateShown.start s) (oc := oc) (cfg := cfg) (w := w)
    (c0 := s.c) evs
  exact ⟨g.1.inp, (g.1.run evs').2⟩

/-- C157, nothing is invented: an image shown is one of those, or was given to a failing cycle. -/
theorem C157_used (pi : List Word) :
    let r := (LateShown.start s).run oc cfg w s.c evs
    r.seen.lastIn = some pi → pi ∈ r.seen.samples ∨ ∃ po, .ev (.failing pi po) ∈ evs := by
  intro r hl
  rcases LateShown.used_run (s := LateShown.start s) evs (LateShown.Numbered.start s h.ins) pi hl with g | g
  · cases g
  · exact g

end

/-! ### An example: digital inputs next to a serial module -/

def exInCom : CouplerConfig where
  modules := [.UR20_4DI_P, .UR20_1COM_232_485_422]
  offsets := [0xFFFF#16, 0x0040#16, 0x8000#16, 0x0000#16]
  params := [List.replicate 4 0, List.replicate 10 0]

theorem exInCom_outputs : DisjointOutputs exInCom := by
  have at_ : ∀ {j t par o i}, ConfiguredAt exInCom j t par o i → o ≠ noOffset → j = 1 := by
    intro j t par o i ⟨h1, h2, h3, h4⟩ hn
    have hj : j < 2 := (List.getElem?_eq_some_iff.1 h1).1
    match j, hj with
    | 0, _ => cases h3; exact absurd rfl hn
    | 1, _ => rfl
  refine disjointOutputs_of ?_
  intro j k t par o i t' par' o' i' p h1 h2 n1 n2 a1 a2 b1 b2
  rw [at_ h1 n1, at_ h2 n2]

def exInComWires : Wiring := ⟨[1], fun _ => ⟨.EightBytes, 0x0000#16, 0x8000#16⟩⟩

def exInComNet (c : Coupler) : LateNet where
  c := c
  kept := List.replicate 4 0#16
  inp := List.replicate 5 0#16
  ins := []
  outs := []
  out := List.replicate 4 0#16
  cycles := 0
  line _ := ⟨0, 0, false, [], [], [[]], 0, []⟩

theorem exInComNet_started {c : Coupler} (h : Coupler.new exInCom = .ok c) :
    (exInComNet c).Started exInCom exInComWires where
  c := h
  distinct := by decide
  serial := by
    intro j hj
    simp only [exInComWires, List.mem_cons, List.not_mem_nil, or_false] at hj
    subst hj
    exact serialAt_of_configured (oc := true) (par := List.replicate 10 0) ⟨c, [], h, rfl⟩
      ⟨rfl, rfl, rfl, rfl⟩ (by decide) (by decide) (by decide) (by decide)
  kept_bytes := fun j _ => kept_infos (oc := true) ⟨c, [], h, rfl⟩ (exInCom_outputs j)
  kept := rfl
  out := fun _ _ => ⟨⟨false, false, false, 0, 0, false, []⟩, (by decide +kernel :
    outFrame .EightBytes 0x8000#16 (List.replicate 4 0#16) = some _)⟩
  inp := fun _ _ => ⟨⟨false, false, 0, 0, false, []⟩,
    (by decide +kernel : inFrame .EightBytes 0x0000#16 (List.replicate 5 0#16) = some _),
    rfl, rfl, rfl, rfl⟩
  ins := rfl
  outs := rfl
  cycles := rfl
  devices := fun _ _ => ⟨Nat.zero_lt_succ 3, Nat.zero_lt_succ 3, rfl⟩
  logs := fun _ _ => ⟨rfl, rfl, rfl⟩

/-- An image of the inputs; the last register are the digital inputs. -/
def exInComImage (x : Word) : List Word := List.replicate 4 0#16 ++ [x]

/-- Three images are sent, the first one arrives late, the second one is lost, and a cycle fails because its
image of the outputs is too short. -/
def exInComEvs : List LateStationEv :=
  [.ev (.sample (exInComImage 1#16)), .ev (.sample (exInComImage 2#16)), .ev .cycle, .ev (.loseIn 1),
    .ev .arrive, .ev (.sample (exInComImage 4#16)), .ev .cycle, .ev (.failing (exInComImage 8#16) [])]

theorem exInCom_absent : ¬ ∀ j, OutputPresent exInCom [] j := by
  intro h
  have h1 := (h 1 .UR20_1COM_232_485_422 (List.replicate 10 0) 0x8000#16 0x0000#16 ⟨rfl, rfl, rfl, rfl⟩
    (by decide)).2.1
  revert h1
  unfold HasRegisters
  decide

theorem exInCom_present : InputsPresent exInCom (exInComImage 8#16) := by
  intro j t par o i ⟨h1, h2, h3, h4⟩ hn
  have hj : j < 2 := (List.getElem?_eq_some_iff.1 h1).1
  match j, hj with
  | 0, _ =>
    cases h1; cases h2; cases h3; cases h4
    exact ⟨by unfold HasRegisters; decide, fun h => by cases h⟩
  | 1, _ =>
    cases h1; cases h2; cases h3; cases h4
    exact ⟨by unfold HasRegisters; decide, fun _ b hb => by
      rw [show byteAt _ _ = some 0#8 by decide] at hb
      cases hb; decide⟩

def exInComCoupler : Coupler :=
  match Coupler.new exInCom with
  | .ok c => c
  | _ => initial exInCom []

theorem exInComCoupler_new : Coupler.new exInCom = .ok exInComCoupler := rfl

noncomputable def exInComRun (n : Nat) : LateShown :=
  (LateShown.start (exInComNet exInComCoupler)).run true exInCom exInComWires exInComCoupler
    (exInComEvs.take n)

/-- After the first cycle the inputs are those of the start, after the second one the first image is shown,
and the third one is still on the way. -/
theorem exInComRun_seen :
    (exInComRun 3).seen.lastIn = some (exInComImage 0#16) ∧
    (exInComRun 7).seen.lastIn = some (exInComImage 1#16) ∧ (exInComRun 7).seen.inp = 1 ∧
    (exInComRun 7).seen.ins = [3] ∧ (exInComRun 7).seen.samples.length = 4 ∧
    (exInComRun 7).station.net.c.inputs[0]? = some [.bit true, .bit false, .bit false, .bit false] := by
  decide +kernel

/-- The failing cycle shows its image of the inputs, but not its image of the outputs. -/
theorem exInComRun_failed : (exInComRun 8).seen.lastIn = some (exInComImage 8#16) ∧
    (exInComRun 8).seen.lastOut = (exInComRun 7).seen.lastOut := by
  have e : exInComRun 8 = (exInComRun 7).step true exInCom exInComWires exInComCoupler
      (.ev (.failing (exInComImage 8#16) [])) := rfl
  have hn : ((exInComRun 7).station.net.c.next true (exInComImage 8#16) []).2 = .err .bufferLength := by
    decide +kernel
  rw [e]
  simp only [LateShown.step, SeenImages.step, hn]
  exact ⟨if_pos exInCom_present, if_neg fun h => exInCom_absent h.2⟩

theorem exInComEvs_small (n : Nat) : LateStation.SmallImages true exInCom (exInComEvs.take n) :=
  fun _ _ _ _ h => by cases h

/-- So `inputs()` shows its bits. -/
example : ShowsInputs exInCom (exInComRun 8).station.net.c.inputs (exInComImage 8#16) :=
  (C157_inputs true exInCom exInComWires (by decide) _ (exInComNet_started exInComCoupler_new) _
    (exInComEvs_small 8)).1 _ exInComRun_failed.1

example := C157_outputs true exInCom exInComWires (by decide) _ (exInComNet_started exInComCoupler_new) _
  (exInComEvs_small 8)

/-- After the loss no image is on the way, and the inputs of the next round are shown. -/
theorem exInComRun_idle : (exInComRun 5).station.net.ins = [] ∧
    (exInComRun 5).station.net.Shows exInComWires (exInComImage 4#16) ∧
    ((exInComRun 5).station.net.c.next true (exInComImage 4#16) (exInComRun 5).station.net.kept).2.map
      (·.length) = .ok 4 ∧
    ((exInComRun 5).station.net.c.next true (exInComRun 5).station.net.inp
      (exInComRun 5).station.net.kept).2.map (·.length) = .ok 4 := by
  decide +kernel

example : ShowsInputs exInCom ((exInComRun 5).run true exInCom exInComWires exInComCoupler
    (LateStation.round (exInComImage 4#16))).station.net.c.inputs (exInComImage 4#16) := by
  obtain ⟨g1, g2, g3, -⟩ := exInComRun_idle
  cases hn : ((exInComRun 5).station.net.c.next true (exInComImage 4#16)
    (exInComRun 5).station.net.kept).2 with
  | ok img =>
    exact C157_latest true exInCom exInComWires (by decide) _ (exInComNet_started exInComCoupler_new) _
      (exInComEvs_small 5) _ img g1 g2 hn
  | err e => rw [hn] at g3; cases g3
  | panic => rw [hn] at g3; cases g3

example : ShowsInputs exInCom ((exInComRun 5).step true exInCom exInComWires exInComCoupler
    (.ev .cycle)).station.net.c.inputs (exInComRun 5).station.net.inp := by
  obtain ⟨-, -, -, g⟩ := exInComRun_idle
  cases hn : ((exInComRun 5).station.net.c.next true (exInComRun 5).station.net.inp
    (exInComRun 5).station.net.kept).2 with
  | ok img =>
    exact (C157_cycle true exInCom exInComWires (by decide) _ (exInComNet_started exInComCoupler_new) _
      (exInComEvs_small 5) img hn).1
  | err e => rw [hn] at g; cases g
  | panic => rw [hn] at g; cases g

example := C157_order true exInCom exInComWires _ (exInComNet_started exInComCoupler_new)
  (exInComEvs.take 5) (exInComEvs.drop 5)

example := C157_used true exInCom exInComWires _ (exInComNet_started exInComCoupler_new)
  (exInComEvs.take 7) _ exInComRun_seen.2.1

end Ur20
