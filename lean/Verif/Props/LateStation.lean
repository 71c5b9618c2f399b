import Verif.Spec.LateStation
import Verif.Props.LateNet
import Verif.Props.LateOutputs

/-!
# C150: the values of all outputs next to serial devices, with late and lost images
-/

namespace Ur20

open Spec Com

open scoped List

theorem zip_eraseIdx {α β : Type} (l : List α) (m : List β) (h : l.length = m.length) (n : Nat) :
    (l.eraseIdx n).zip (m.eraseIdx n) = (l.zip m).eraseIdx n := by
  induction l generalizing m n with
  | nil => simp
  | cons x l ih =>
    cases m with
    | nil => simp at h
    | cons y m =>
      cases n with
      | zero => simp
      | succ n => simpa using ih m (by simpa using h) n

namespace Spec.LateStation

/-- What concerns the images of the outputs. -/
def outputs (s : LateStation) : LateOut :=
  ⟨s.net.c, s.stamps.calls, (s.stamps.kept, s.net.kept), s.stamps.outs.zip s.net.outs,
    (s.stamps.out, s.net.out)⟩

/-- Every image on the way has a record. -/
def Paired (s : LateStation) : Prop := s.stamps.outs.length = s.net.outs.length

theorem read_none {c c' : Coupler} {j n : Nat} (h : c.read j n = .ok (c', none)) : c' = c := by
  unfold Coupler.read at h
  split at h
  · rename_i p _
    simp only [Res.bind] at h
    cases hr : p.read n <;> rw [hr] at h <;> simp at h
  · cases h; rfl

theorem step_outputs {oc : Bool} {cfg : CouplerConfig} {w : Wiring} (hw : w.modules ≠ []) {c0 : Coupler}
    (h0 : Coupler.new cfg = .ok c0) {s : LateStation} (hs : s.Paired) (e : LateStationEv) :
    (s.step oc w c0 e).Paired ∧ ∃ evs, (s.step oc w c0 e).outputs = s.outputs.run oc evs ∧
      (OnlyUndecodable oc cfg [e] → ∀ e ∈ evs, LateOut.Admissible oc cfg e) := by
  obtain ⟨⟨c, kept, inp, ins, outs, out, cycles, line⟩, ⟨calls, kept', outs', out'⟩⟩ := s
  have hs' : outs'.length = outs.length := hs
  cases e with
  | restart pi =>
    refine ⟨rfl, [.restart c0], rfl, fun _ e he => ?_⟩
    simp only [List.mem_cons, List.not_mem_nil, or_false] at he
    subst he
    exact h0
  | set j v =>
    simp only [step]
    by_cases hj : j ∈ w.modules
    · simp only [if_pos hj]
      refine ⟨hs, [.call (.setOutput ⟨j, 0⟩ v)], rfl, fun _ e he => ?_⟩
      simp only [List.mem_cons, List.not_mem_nil, or_false] at he
      subst he
      trivial
    · simp only [if_neg hj]
      exact ⟨hs, [], rfl, fun _ e he => by simp at he⟩
  | ev e =>
    have keep : ∀ evs : List LateOutEv, (∀ e ∈ evs, ∀ pi po, e ≠ .failing pi po ∧ ∀ c, e ≠ .restart c) →
        ∀ e ∈ evs, LateOut.Admissible oc cfg e := by
      intro evs h e he
      cases e with
      | failing pi po => exact absurd rfl (h _ he pi po).1
      | restart c => exact absurd rfl ((h _ he [] []).2 c)
      | _ => trivial
    cases e with
    | write j buf =>
      simp only [step, LateNet.step, Stamps.step]
      by_cases hj : j ∈ w.modules
      · simp only [if_pos hj]
        exact ⟨hs, [.call (.write j buf)], rfl, fun _ => keep _ (by simp)⟩
      · simp only [if_neg hj]
        exact ⟨hs, [], rfl, fun _ => keep _ (by simp)⟩
    | read j n =>
      simp only [step, LateNet.step, Stamps.step]
      by_cases hj : j ∈ w.modules
      · simp only [if_pos hj]
        refine ⟨?_, [.call (.read j n)], ?_, fun _ => keep _ (by simp)⟩
        · cases hr : c.read j n with
          | ok p => obtain ⟨c', b⟩ := p; cases b <;> exact hs
          | err e => exact hs
          | panic => exact hs
        · change _ = LateOut.mk (COp.apply oc c (.read j n)) (calls ++ [.read j n]) (kept', kept)
            (outs'.zip outs) (out', out)
          rw [Net.read_apply]
          cases hr : c.read j n with
          | ok p =>
            obtain ⟨c', b⟩ := p
            cases b with
            | none => rw [read_none hr]; rfl
            | some b => rfl
          | err e => rfl
          | panic => rfl
      · simp only [if_neg hj]
        exact ⟨hs, [], rfl, fun _ => keep _ (by simp)⟩
    | other op =>
      simp only [step, LateNet.step, Stamps.step]
      by_cases ho : ∀ j ∈ w.modules, op.Elsewhere j
      · simp only [if_pos ho]
        refine ⟨hs, [.call op], ?_, fun _ => keep _ (by simp)⟩
        obtain ⟨j, hj⟩ := List.exists_mem_of_ne_nil _ hw
        cases op with
        | next pi po => exact absurd (ho j hj) (by simp [COp.Elsewhere])
        | _ => rfl
      · simp only [if_neg ho]
        exact ⟨hs, [], rfl, fun _ => keep _ (by simp)⟩
    | cycle =>
      refine ⟨?_, [.cycle inp], ?_, fun _ => keep _ (by simp)⟩
      · simp only [step, LateNet.step, Stamps.step, Paired]
        rcases c.next oc inp kept with ⟨c', r⟩
        cases r <;> simp [hs']
      · change _ = LateOut.step oc (outputs _) (.cycle inp)
        simp only [step, LateNet.step, Stamps.step, outputs, LateOut.step]
        rcases c.next oc inp kept with ⟨c', r⟩
        cases r
        · simp only [ne_eq, Nat.add_eq_left, one_ne_zero, not_false_eq_true, decide_true, if_true]
          rw [List.zip_append hs']
          rfl
        · simp
        · simp
    | failing pi po =>
      refine ⟨?_, [.failing pi po], ?_, fun hu e he => ?_⟩
      · simp only [step, LateNet.step, Stamps.step, Paired]
        rcases c.next oc pi po with ⟨c', r⟩
        cases r <;> exact hs
      · change _ = LateOut.step oc (outputs _) (.failing pi po)
        simp only [step, LateNet.step, Stamps.step, outputs, LateOut.step]
        rcases c.next oc pi po with ⟨c', r⟩
        cases r <;> rfl
      · simp only [List.mem_cons, List.not_mem_nil, or_false] at he
        subst he
        exact hu pi po (by simp)
    | again =>
      refine ⟨?_, [.again], ?_, fun _ => keep _ (by simp)⟩
      · simp [step, LateNet.step, Stamps.step, Paired, hs']
      · change _ = LateOut.step oc (outputs _) .again
        simp only [step, LateNet.step, Stamps.step, outputs, LateOut.step]
        rw [List.zip_append hs']
        rfl
    | deliver =>
      refine ⟨?_, [.deliver], ?_, fun _ => keep _ (by simp)⟩
      · simp only [step, LateNet.step, Stamps.step, Paired]
        cases outs <;> cases outs' <;> simp_all
      · change _ = LateOut.step oc (outputs _) .deliver
        simp only [step, LateNet.step, Stamps.step, outputs, LateOut.step]
        cases outs <;> cases outs' <;> simp_all
    | loseOut n =>
      refine ⟨?_, [.lose n], ?_, fun _ => keep _ (by simp)⟩
      · simp only [step, LateNet.step, Stamps.step, Paired, List.length_eraseIdx, hs']
      · change _ = LateOut.step oc (outputs _) (.lose n)
        simp only [step, LateNet.step, Stamps.step, outputs, LateOut.step]
        rw [zip_eraseIdx _ _ hs']
    | sample pi =>
      refine ⟨?_, [], ?_, fun _ => keep _ (by simp)⟩
      all_goals
        simp only [step, LateNet.step, Stamps.step]
        split
        all_goals first | exact hs | rfl
    | arrive =>
      refine ⟨?_, [], ?_, fun _ => keep _ (by simp)⟩
      all_goals
        simp only [step, LateNet.step, Stamps.step]
        split
        all_goals first | exact hs | rfl
    | loseIn n => exact ⟨hs, [], rfl, fun _ => keep _ (by simp)⟩
    | take j =>
      refine ⟨?_, [], ?_, fun _ => keep _ (by simp)⟩
      all_goals
        simp only [step, LateNet.step, Stamps.step]
        repeat' split
        all_goals first | exact hs | rfl
    | post j seg =>
      refine ⟨?_, [], ?_, fun _ => keep _ (by simp)⟩
      all_goals
        simp only [step, LateNet.step, Stamps.step]
        repeat' split
        all_goals first | exact hs | rfl
    | hide j =>
      refine ⟨?_, [], ?_, fun _ => keep _ (by simp)⟩
      all_goals
        simp only [step, LateNet.step, Stamps.step]
        repeat' split
        all_goals first | exact hs | rfl

theorem run_outputs {oc : Bool} {cfg : CouplerConfig} {w : Wiring} (hw : w.modules ≠ []) {c0 : Coupler}
    (h0 : Coupler.new cfg = .ok c0) (evs : List LateStationEv) {s : LateStation} (hs : s.Paired) :
    (s.run oc w c0 evs).Paired ∧ ∃ evs', (s.run oc w c0 evs).outputs = s.outputs.run oc evs' ∧
      (OnlyUndecodable oc cfg evs → ∀ e ∈ evs', LateOut.Admissible oc cfg e) := by
  induction evs generalizing s with
  | nil => exact ⟨hs, [], rfl, fun _ e he => by simp at he⟩
  | cons e evs ih =>
    obtain ⟨h1, l1, e1, a1⟩ := step_outputs (oc := oc) hw h0 hs e
    obtain ⟨h2, l2, e2, a2⟩ := ih h1
    refine ⟨h2, l1 ++ l2, ?_, fun hu e he => ?_⟩
    · change ((s.step oc w c0 e).run oc w c0 evs).outputs = _
      rw [e2, e1, LateOut.run, LateOut.run, LateOut.run, List.foldl_append]
    · rcases List.mem_append.1 he with he | he
      · exact a1 (fun pi po h => hu pi po (by
          simp only [List.mem_cons, List.not_mem_nil, or_false] at h
          rw [h]; exact List.mem_cons_self)) e he
      · exact a2 (fun pi po h => hu pi po (List.mem_cons_of_mem _ h)) e he

theorem start_outputs {cfg : CouplerConfig} {w : Wiring} {s : LateNet} (h : s.Started cfg w) :
    (start s).Paired ∧ (start s).outputs = LateOut.start s.c s.out := by
  refine ⟨by simp [Paired, start, Stamps.start, h.outs], ?_⟩
  simp only [outputs, start, Stamps.start, LateOut.start, h.kept, List.zip_nil_left]

end Spec.LateStation

/-- C150, values: next to any number of serial devices and whatever is late or lost, the station has for
every output channel of another module the value of the last `set_output` of the calls made before the
cycle its image comes from, and what it had on at the start if there was none, also after restarts. -/
theorem C150_values (oc : Bool) (cfg : CouplerConfig) (w : Wiring) (hw : w.modules ≠ []) (s : LateNet)
    (h : s.Started cfg w) (evs : List LateStationEv) (hu : LateStation.OnlyUndecodable oc cfg evs)
    (j : Nat) (hdis : OutputsKept cfg j)
    (t : ModuleType) (par : List Word) (o i : Word) (hcfg : ConfiguredAt cfg j t par o i)
    (ht : t ≠ .UR20_1COM_232_485_422) (hno : o ≠ noOffset)
    (hal : o.toNat % 16 = 0 ∨ outputBytes t par = 1) (ch : Nat) (hch : ch < outputChannels t) :
    let r := (LateStation.start s).run oc w s.c evs
    (∀ v, lastSet ⟨j, ch⟩ r.stamps.out = some v → Settled t par r.net.out (outBit o) ch v) ∧
    (lastSet ⟨j, ch⟩ r.stamps.out = none → ∀ v, Settled t par s.out (outBit o) ch v →
      Settled t par r.net.out (outBit o) ch v) := by
  intro r
  obtain ⟨h1, h2⟩ := LateStation.start_outputs h
  obtain ⟨-, evs', e1, e2⟩ := LateStation.run_outputs (oc := oc) hw h.c evs h1
  have := C130_values oc cfg s.c h.c j hdis t par o i hcfg ht hno hal ch hch s.out evs' (e2 hu)
  rw [← h2, ← e1] at this
  exact this

/-- C150 with the bounds of C107: the register of an enabled analog output channel is within 2 or 5
steps, depending on the range, of the encoded value. -/
theorem C150_analog (oc : Bool) (cfg : CouplerConfig) (w : Wiring) (hw : w.modules ≠ []) (s : LateNet)
    (h : s.Started cfg w) (evs : List LateStationEv) (hu : LateStation.OnlyUndecodable oc cfg evs)
    (j : Nat) (hdis : OutputsKept cfg j)
    (t : ModuleType) (par : List Word) (o i : Word) (hcfg : ConfiguredAt cfg j t par o i)
    (hno : o ≠ noOffset) (hal : o.toNat % 16 = 0) (ch : Nat) (hch : ch < 4)
    (r : AnalogUIRange) (f : DataFormat) (hf : OutputFormat t par ch r f) (hen : r ≠ .Disabled)
    (w0 : Word) (hw0 : s.out[outBit o / 16 + ch]? = some w0) :
    let st := (LateStation.start s).run oc w s.c evs
    (∀ v, lastSet ⟨j, ch⟩ st.stamps.out = some v → ∃ (w : Word) (e : ℤ),
      st.net.out[outBit o / 16 + ch]? = some w ∧
      ((∃ x, v = .decimal32 x ∧ EncodedAs (r, f) x e) ∨ (v = .disabled ∧ e = 0)) ∧
      |w.toInt - e| ≤ maxDrift r) ∧
    (lastSet ⟨j, ch⟩ st.stamps.out = none →
      ∃ w : Word, st.net.out[outBit o / 16 + ch]? = some w ∧ |w.toInt - w0.toInt| ≤ maxDrift r) := by
  intro st
  obtain ⟨h1, h2⟩ := LateStation.start_outputs h
  obtain ⟨-, evs', e1, e2⟩ := LateStation.run_outputs (oc := oc) hw h.c evs h1
  have := C130_analog oc cfg s.c h.c j hdis t par o i hcfg hno hal ch hch r f hf hen s.out evs' (e2 hu)
    w0 hw0
  rw [← h2, ← e1] at this
  exact this

/-- C150, order: the image of the station carries the values of some of the calls made so far, and in the
course of a schedule the station never goes back to an older one. -/
theorem C150_order (oc : Bool) (cfg : CouplerConfig) (w : Wiring) (hw : w.modules ≠ []) (s : LateNet)
    (h : s.Started cfg w) (evs evs' : List LateStationEv) :
    let r := (LateStation.start s).run oc w s.c evs
    r.stamps.out <+: r.stamps.calls ∧ r.stamps.out <+: (r.run oc w s.c evs').stamps.out := by
  intro r
  obtain ⟨h1, h2⟩ := LateStation.start_outputs h
  obtain ⟨p1, l1, e1, -⟩ := LateStation.run_outputs (oc := oc) hw h.c evs h1
  obtain ⟨-, l2, e2, -⟩ := LateStation.run_outputs (oc := oc) hw h.c evs' p1
  have key : ((LateOut.start s.c s.out).run oc (l1 ++ l2)) =
      (r.run oc w s.c evs').outputs := by
    rw [e2, e1, h2, LateOut.run, LateOut.run, LateOut.run, List.foldl_append]
  have := C130_order oc s.c s.out l1 l2
  rw [key, ← h2, ← e1] at this
  exact this

namespace Spec.LateStation

/-- The coupler is one that calls and cycles lead to, what is to be written is accepted, and all images
of the outputs are complete. -/
structure Fit (oc : Bool) (cfg : CouplerConfig) (s : LateNet) : Prop where
  fit : s.Fit oc cfg
  out : OutputsReady cfg s.out
  outs : ∀ img ∈ s.outs, OutputsReady cfg img

/-- A serial module takes values of all kinds. -/
theorem serial_accepts {cfg : CouplerConfig} {c : Coupler} (h : Coupler.new cfg = .ok c) {j : Nat}
    {len : ProcessDataLength} {oi oo : Word} (hs : SerialAt c j len oi oo) {t : ModuleType}
    (ht : cfg.modules[j]? = some t) (v : ChannelValue) : Accepts t v := by
  obtain ⟨cm, ⟨hm, -⟩, -⟩ := hs
  obtain ⟨-, -, h3, -⟩ := (C13_success cfg).2 c h
  have hl := ((C13_success cfg).1.1 ⟨c, h⟩).1
  have hj : j < cfg.params.length := by rw [← hl]; exact (List.getElem?_eq_some_iff.1 ht).1
  obtain ⟨m, o, n, h4, h5, -⟩ := h3 j t _ ht (List.getElem?_eq_getElem hj)
  rw [hm] at h4
  cases h4
  have key : ∀ {α : Type} (x : Res α) (f : α → Module), (∀ a, f a ≠ .com cm) → x.map f ≠ .ok (.com cm) := by
    intro α x f hf hx
    cases x with
    | ok a => exact hf a (Res.ok.inj hx)
    | err e => cases hx
    | panic => cases hx
  cases t <;> first
    | trivial
    | exact absurd h5 (key _ _ fun _ h => by cases h)

theorem Fit.step {oc : Bool} {cfg : CouplerConfig} {w : Wiring} {c0 : Coupler}
    (h0 : Coupler.new cfg = .ok c0)
    (hser : ∀ j ∈ w.modules, SerialAt c0 j (w.wire j).len (w.wire j).oi (w.wire j).oo)
    {s : LateStation} (h : Fit oc cfg s.net) (e : LateStationEv)
    (he : AcceptedValues cfg [e]) : Fit oc cfg (s.step oc w c0 e).net := by
  cases e with
  | set j v =>
    simp only [LateStation.step]
    split
    · rename_i hj
      refine ⟨⟨LateNet.fit_apply h.fit.reach (.setOutput ⟨j, 0⟩ v),
        Plant.pending_call (oc := oc) (op := .setOutput ⟨j, 0⟩ v) h.fit.pending ?_, h.fit.kept⟩,
        h.out, h.outs⟩
      intro a v' ha t ht
      cases ha
      exact serial_accepts h0 (hser j hj) ht v
    · exact h
  | restart pi =>
    refine ⟨⟨⟨c0, [], h0, rfl⟩, ?_, h.out⟩, h.out, fun img hi => by cases hi⟩
    intro a v t hw
    have hw' : c0.write a = some v := hw
    rw [((C13_success cfg).2 c0 h0).2.2.2.2.2 a] at hw'
    cases hw'
  | ev e =>
    have hf : (s.net.step oc w e).Fit oc cfg :=
      h.fit.step e fun a v ha => he a v (by rw [ha]; exact List.mem_cons_self)
    refine ⟨hf, ?_, ?_⟩
    · change OutputsReady cfg (s.net.step oc w e).out
      cases e with
      | deliver =>
        simp only [LateNet.step]
        split
        · rename_i o outs ho
          exact h.outs o (by rw [ho]; exact List.mem_cons_self)
        · exact h.out
      | _ =>
        simp only [LateNet.step]
        repeat' split
        all_goals exact h.out
    · change ∀ img ∈ (s.net.step oc w e).outs, OutputsReady cfg img
      cases e with
      | deliver =>
        simp only [LateNet.step]
        split
        · rename_i o outs ho
          exact fun img hi => h.outs img (by rw [ho]; exact List.mem_cons_of_mem _ hi)
        · exact h.outs
      | loseOut n => exact fun img hi => h.outs img (List.mem_of_mem_eraseIdx hi)
      | again =>
        intro img hi
        rcases List.mem_append.1 hi with hi | hi
        · exact h.outs img hi
        · simp only [List.mem_cons, List.not_mem_nil, or_false] at hi
          rw [hi]
          exact h.fit.kept
      | cycle =>
        have hk := hf.kept
        simp only [LateNet.step] at hk ⊢
        split
        · rename_i c' img hn
          rw [hn] at hk
          intro x hx
          rcases List.mem_append.1 hx with hx | hx
          · exact h.outs x hx
          · simp only [List.mem_cons, List.not_mem_nil, or_false] at hx
            rw [hx]
            exact hk
        · exact h.outs
      | _ =>
        simp only [LateNet.step]
        repeat' split
        all_goals exact h.outs

theorem Fit.run {oc : Bool} {cfg : CouplerConfig} {w : Wiring} {c0 : Coupler}
    (h0 : Coupler.new cfg = .ok c0)
    (hser : ∀ j ∈ w.modules, SerialAt c0 j (w.wire j).len (w.wire j).oi (w.wire j).oo) (evs : List LateStationEv) {s : LateStation} (h : Fit oc cfg s.net)
    (he : AcceptedValues cfg evs) : Fit oc cfg (s.run oc w c0 evs).net := by
  induction evs generalizing s with
  | nil => exact h
  | cons e evs ih =>
    refine ih (h.step h0 hser e fun a v ha => he a v ?_) fun a v ha => he a v (List.mem_cons_of_mem _ ha)
    simp only [List.mem_cons, List.not_mem_nil, or_false] at ha
    rw [ha]
    exact List.mem_cons_self

end Spec.LateStation

/-- C150, progress: whatever was late or lost and wherever the application was restarted, when nothing is
on the way any more then one round brings the values of all calls to the station. Its cycle succeeds,
because the image of the outputs was complete at the start. -/
theorem C150_progress (oc : Bool) (cfg : CouplerConfig) (w : Wiring) (hw : w.modules ≠ []) (s : LateNet)
    (h : s.Started cfg w) (ho : OutputsReady cfg s.out) (evs : List LateStationEv)
    (hv : LateStation.AcceptedValues cfg evs) (pi : List Word) (hpi : InputsReady cfg pi) :
    let r := (LateStation.start s).run oc w s.c evs
    r.net.ins = [] → r.net.outs = [] → r.net.Shows w pi →
    let r' := r.run oc w s.c (LateStation.round pi)
    r'.stamps.out = r.stamps.calls ∧ r'.stamps.calls = r.stamps.calls ∧
      r'.net.cycles = r.net.cycles + 1 := by
  intro r hi hos hsh r'
  have hst : r.stamps.outs = [] := by
    have := (LateStation.run_outputs (oc := oc) hw h.c evs (LateStation.start_outputs h).1).1
    exact List.length_eq_zero_iff.1 (by rw [show r.stamps.outs.length = _ from this, hos]; rfl)
  have hF : LateStation.Fit oc cfg r.net := LateStation.Fit.run h.c h.serial evs
    ⟨LateNet.Started.fit h ho, ho, fun img hi => by
      change img ∈ s.outs at hi
      rw [h.outs] at hi
      cases hi⟩ hv
  obtain ⟨img, hn⟩ := hF.fit.succeeds hpi
  rcases hx : r.net.c.next oc pi r.net.kept with ⟨c', x⟩
  rw [hx] at hn
  subst hn
  have e1 : r.net.step oc w (.sample pi) = { r.net with ins := [pi] } := by
    simp [LateNet.step, hsh, hi]
  simp only [r', LateStation.run, LateStation.round, List.foldl_cons, List.foldl_nil, LateStation.step,
    Stamps.step, e1]
  simp only [LateNet.step, hx]
  simp [hos, hst]

/-- The schedule of the example of C148, then the application restarts, sets another output and bytes on
the serial modules and makes a cycle. -/
def exLateStationEvs : List LateStationEv :=
  exLateNetEvs.map .ev ++
    [.restart [0x0020#16, 0#16, 0#16, 0#16, 0x0109#16, 0x0041#16, 0#16, 0#16],
     .ev (.other (.setOutput ⟨0, 3⟩ (.bit true))), .set 1 (.bytes [5#8, 6#8]), .ev .cycle,
     .ev (.loseOut 0), .set 2 (.bit true),
     .ev (.other (.setOutput ⟨0, 0⟩ (.bit true))), .ev (.other (.setOutput ⟨0, 1⟩ (.bit false)))]

/-- Output 1 is on with the image that has arrived; the calls after the restart have not arrived, and one
round brings them. -/
example :
    let r := (LateStation.start exLateNet).run true exWires exLateNet.c exLateStationEvs
    let pi := [0x0020#16, 0#16, 0#16, 0#16, 0x0109#16, 0x0041#16, 0#16, 0#16]
    let r' := r.run true exWires exLateNet.c (LateStation.round pi)
    lastSet ⟨0, 1⟩ r.stamps.out = some (.bit true) ∧ lastSet ⟨0, 3⟩ r.stamps.out = none ∧
    r.net.out[0]? = some 2#16 ∧ r.net.ins = [] ∧ r.net.outs = [] ∧ r.net.Shows exWires pi ∧
    r'.net.out[0]? = some 9#16 := by
  decide +kernel

theorem exLateStationEvs_good : LateStation.OnlyUndecodable true exDuo exLateStationEvs ∧
    LateStation.AcceptedValues exDuo exLateStationEvs := by
  refine ⟨fun pi po h => by simp [exLateStationEvs, exLateNetEvs] at h, fun a v h t ht => ?_⟩
  simp only [exLateStationEvs, exLateNetEvs, List.map_cons, List.map_nil, List.cons_append,
    List.nil_append, List.mem_cons, LateStationEv.ev.injEq, LateNetEv.other.injEq, COp.setOutput.injEq,
    reduceCtorEq, List.not_mem_nil, or_false, false_or] at h
  rcases h with ⟨rfl, rfl⟩ | ⟨rfl, rfl⟩ | ⟨rfl, rfl⟩ | ⟨rfl, rfl⟩ <;>
  · cases ht
    exact .inr ⟨_, rfl⟩

theorem exDuo_kept : OutputsKept exDuo 0 := exDuo_outputs 0

example := C150_values true exDuo exWires (by decide) exLateNet exLateNet_started exLateStationEvs
  exLateStationEvs_good.1 0 exDuo_kept .UR20_4DO_P (List.replicate 4 0) 0x8000#16 noOffset
  ⟨rfl, rfl, rfl, rfl⟩ (by decide) (by decide) (.inl (by decide)) 1 (by decide)

example := C150_order true exDuo exWires (by decide) exLateNet exLateNet_started exLateStationEvs
  [.ev .cycle]

example := C150_progress true exDuo exWires (by decide) exLateNet exLateNet_started exLateNet_ready
  exLateStationEvs exLateStationEvs_good.2
  [0x0020#16, 0#16, 0#16, 0#16, 0x0109#16, 0x0041#16, 0#16, 0#16] exLateNetRun_good.2.2.2.1.1

/-- An analog output module and a serial module. -/
def exAoCom : CouplerConfig where
  modules := [.UR20_4AO_UI_16, .UR20_1COM_232_485_422]
  offsets := [0x8000#16, 0xFFFF#16, 0x8040#16, 0x0000#16]
  params := [[1, 0, 0, 1, 0, 0, 1, 0, 0, 1, 0, 0], List.replicate 10 0]

theorem exAoCom_outputs : DisjointOutputs exAoCom := by
  have at_ : ∀ {j t par o i}, ConfiguredAt exAoCom j t par o i →
      (j = 0 ∧ o = 0x8000#16 ∧ outputBytes t par = 8) ∨
      (j = 1 ∧ o = 0x8040#16 ∧ outputBytes t par = 8) := by
    intro j t par o i ⟨h1, h2, h3, h4⟩
    have hj : j < 2 := (List.getElem?_eq_some_iff.1 h1).1
    match j, hj with
    | 0, _ => cases h1; cases h2; cases h3; cases h4; decide
    | 1, _ => cases h1; cases h2; cases h3; cases h4; decide
  refine disjointOutputs_of ?_
  intro j k t par o i t' par' o' i' p h1 h2 n1 n2 a1 a2 b1 b2
  rcases at_ h1 with ⟨rfl, rfl, e1⟩ | ⟨rfl, rfl, e1⟩ <;> rcases at_ h2 with ⟨rfl, rfl, e2⟩ | ⟨rfl, rfl, e2⟩ <;>
  first
  | rfl
  | (exfalso
     rw [e1] at a2
     rw [e2] at b2
     simp [outByte, outputBase] at a1 a2 b1 b2
     omega)

def exAoComWires : Wiring := ⟨[1], fun _ => ⟨.EightBytes, 0x0000#16, 0x8040#16⟩⟩

def exAoComNet (c : Coupler) : LateNet where
  c := c
  kept := [45#16, 0#16, 0#16, 0#16, 0#16, 0#16, 0#16, 0#16]
  inp := List.replicate 4 0#16
  ins := []
  outs := []
  out := [45#16, 0#16, 0#16, 0#16, 0#16, 0#16, 0#16, 0#16]
  cycles := 0
  line _ := ⟨0, 0, false, [], [], [[]], 0, []⟩

theorem exAoComNet_started {c : Coupler} (h : Coupler.new exAoCom = .ok c) :
    (exAoComNet c).Started exAoCom exAoComWires where
  c := h
  distinct := by decide
  serial := by
    intro j hj
    simp only [exAoComWires, List.mem_cons, List.not_mem_nil, or_false] at hj
    subst hj
    exact serialAt_of_configured (oc := true) (par := List.replicate 10 0) ⟨c, [], h, rfl⟩
      ⟨rfl, rfl, rfl, rfl⟩ (by decide) (by decide) (by decide) (by decide)
  kept_bytes := fun j _ => kept_infos (oc := true) ⟨c, [], h, rfl⟩ (exAoCom_outputs j)
  kept := rfl
  out := fun _ _ => ⟨⟨false, false, false, 0, 0, false, []⟩, (by decide +kernel :
    outFrame .EightBytes 0x8040#16 [45#16, 0#16, 0#16, 0#16, 0#16, 0#16, 0#16, 0#16] = some _)⟩
  inp := fun _ _ => ⟨⟨false, false, 0, 0, false, []⟩,
    (by decide +kernel : inFrame .EightBytes 0x0000#16 (List.replicate 4 0#16) = some _),
    rfl, rfl, rfl, rfl⟩
  ins := rfl
  outs := rfl
  cycles := rfl
  devices := fun _ _ => ⟨Nat.zero_lt_succ 3, Nat.zero_lt_succ 3, rfl⟩
  logs := fun _ _ => ⟨rfl, rfl, rfl⟩

/-- 4110/1024 mA is set next to a serial device; the image arrives late. -/
def exAoComEvs : List LateStationEv :=
  [.ev (.write 1 [1#8]), .ev (.other (.setOutput ⟨0, 0⟩ (.decimal32 (.fin (4110 / 1024))))), .ev .cycle,
    .ev .cycle, .ev (.loseOut 1), .ev .deliver, .ev (.take 1)]

example : ∃ c, Coupler.new exAoCom = .ok c ∧
    let r := (LateStation.start (exAoComNet c)).run true exAoComWires c exAoComEvs
    r.net.out[0]? = some 5548#16 ∧
    lastSet ⟨0, 0⟩ r.stamps.out = some (.decimal32 (.fin (4110 / 1024))) :=
  ⟨_, rfl, by decide +kernel, by decide +kernel⟩

example (c : Coupler) (h : Coupler.new exAoCom = .ok c) :=
  C150_analog true exAoCom exAoComWires (by decide) (exAoComNet c) (exAoComNet_started h) exAoComEvs
    (fun pi po h => by simp [exAoComEvs] at h) 0 (exAoCom_outputs 0) .UR20_4AO_UI_16 _ 0x8000#16 _
    ⟨rfl, rfl, rfl, rfl⟩ (by decide) (by decide) 0 (by decide) .mA0To20 .S7 ⟨⟨_, rfl, rfl⟩, ⟨_, rfl, rfl⟩⟩
    (by decide) 45#16 rfl

end Ur20
