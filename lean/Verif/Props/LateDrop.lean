import Verif.Spec.LateDrop
import Verif.Props.LateStation
import Verif.Props.LateFailNet

/-!
# C156: the values of all outputs with failing cycles and late and lost images
-/

namespace Ur20

open Spec Com

open scoped List

namespace Spec.LateOut

open Classical in
/-- A step in which a failing cycle whose images can be decoded discards what was set. -/
noncomputable def dstep (oc : Bool) (cfg : CouplerConfig) (s : LateOut) : LateOutEv → LateOut
  | .failing pi po =>
    { s.step oc (.failing pi po) with
      calls := if Decodable cfg pi po ∧ ∃ e, (s.c.next oc pi po).2 = .err e then s.kept.1 else s.calls }
  | e => s.step oc e

noncomputable def drun (oc : Bool) (cfg : CouplerConfig) (s : LateOut) (evs : List LateOutEv) : LateOut :=
  evs.foldl (dstep oc cfg) s

/-- What `dstep` demands of a step. -/
def Sound (oc : Bool) (cfg : CouplerConfig) : LateOutEv → Prop
  | .failing pi po => ¬ Decodable cfg pi po → oc = false → po.length ≤ 0xF800
  | .restart c => Coupler.new cfg = .ok c
  | _ => True

theorem step_calls (oc : Bool) (s : LateOut) (pi po : List Word) :
    (s.step oc (.failing pi po)).calls = s.calls := by
  simp only [step]
  split <;> rfl

/-- Only failing cycles whose images can be decoded make a difference. -/
theorem dstep_undecodable {oc : Bool} {cfg : CouplerConfig} (s : LateOut) {pi po : List Word}
    (h : ¬ Decodable cfg pi po) :
    s.dstep oc cfg (.failing pi po) = s.step oc (.failing pi po) := by
  simp only [dstep, h, false_and, if_false]
  rw [← step_calls oc s pi po]

theorem drun_admissible {oc : Bool} {cfg : CouplerConfig} (evs : List LateOutEv)
    (h : ∀ e ∈ evs, Admissible oc cfg e) (s : LateOut) : s.drun oc cfg evs = s.run oc evs := by
  induction evs generalizing s with
  | nil => rfl
  | cons e evs ih =>
    have h1 : s.dstep oc cfg e = s.step oc e := by
      have he := h e List.mem_cons_self
      cases e with
      | failing pi po => exact dstep_undecodable s he.1
      | _ => rfl
    change (s.dstep oc cfg e).drun oc cfg evs = (s.step oc e).run oc evs
    rw [h1, ih fun e he => h e (List.mem_cons_of_mem _ he)]

theorem Admissible.sound {oc : Bool} {cfg : CouplerConfig} {e : LateOutEv} (h : Admissible oc cfg e) :
    Sound oc cfg e := by
  cases e with
  | failing pi po => exact fun _ => h.2
  | restart c => exact h
  | _ => trivial

/-- A failing cycle changes nothing but the coupler. -/
theorem step_failing (oc : Bool) (s : LateOut) (pi po : List Word) :
    (s.step oc (.failing pi po)).kept = s.kept ∧ (s.step oc (.failing pi po)).outs = s.outs ∧
      (s.step oc (.failing pi po)).out = s.out := by
  simp only [step]
  split <;> exact ⟨rfl, rfl, rfl⟩

theorem Ordered.dstep {oc : Bool} {cfg : CouplerConfig} {s : LateOut} (h : s.Ordered) (e : LateOutEv) :
    (s.dstep oc cfg e).Ordered ∧ s.out.1 <+: (s.dstep oc cfg e).out.1 := by
  cases e with
  | failing pi po =>
    obtain ⟨h1, h2, h3⟩ := step_failing oc s pi po
    refine ⟨⟨?_, ?_⟩, ?_⟩
    · have := h.1
      unfold images at this ⊢
      simp only [LateOut.dstep, h1, h2, h3]
      exact this
    · simp only [LateOut.dstep, h1]
      split
      · exact List.prefix_refl _
      · exact h.2
    · simp only [LateOut.dstep, h3]
      exact List.prefix_refl _
  | _ => exact h.step _

theorem Ordered.drun {oc : Bool} {cfg : CouplerConfig} {s : LateOut} (h : s.Ordered)
    (evs : List LateOutEv) :
    (s.drun oc cfg evs).Ordered ∧ s.out.1 <+: (s.drun oc cfg evs).out.1 := by
  induction evs generalizing s with
  | nil => exact ⟨h, List.prefix_refl _⟩
  | cons e evs ih =>
    obtain ⟨h1, h2⟩ := h.dstep (oc := oc) (cfg := cfg) e
    obtain ⟨h3, h4⟩ := ih h1
    exact ⟨h3, h2.trans h4⟩

end Spec.LateOut

section

variable {oc : Bool} {cfg : CouplerConfig} {a : Address} {Good : Option ChannelValue → List Word → Prop}

theorem LateGood.dstep {s : LateOut} (h : LateGood oc cfg a Good s)
    (hval : ∀ c, ReachableFrom oc cfg c → c.isValidAddr a = true)
    (hcyc : ∀ (c c1 : Coupler) (pi po img : List Word) (last : Option ChannelValue),
      ReachableFrom oc cfg c → c.next oc pi po = (c1, .ok img) → Good last po →
      c1.write a = none ∧ Good ((c.write a).or last) img)
    (hdet : ¬ DetachedSerial cfg a.module) (e : LateOutEv) (he : LateOut.Sound oc cfg e) :
    LateGood oc cfg a Good (s.dstep oc cfg e) := by
  cases e with
  | failing pi po =>
    by_cases hd : Decodable cfg pi po
    · obtain ⟨-, hw⟩ := C78_consumed oc cfg s.c h.reach pi po hd.1 hd.2
      have hr := reachable_run h.reach [.next pi po]
      simp only [runC, List.foldl, COp.apply] at hr
      have hw' := (hw a).2 hdet
      rcases hn : s.c.next oc pi po with ⟨c', r⟩
      rw [hn] at hr hw'
      cases r with
      | err er =>
        have e1 : s.dstep oc cfg (.failing pi po) = { s with c := c', calls := s.kept.1 } := by
          simp only [LateOut.dstep, LateOut.step, hn]
          rw [if_pos ⟨hd, er, by rw [hn]⟩]
        rw [e1]
        exact ⟨hr, ⟨[], by simp, hw'⟩, h.good⟩
      | ok img =>
        have e1 : s.dstep oc cfg (.failing pi po) = s := by
          simp only [LateOut.dstep, LateOut.step, hn]
          rw [if_neg (by rintro ⟨-, e, he⟩; rw [hn] at he; cases he)]
        rw [e1]
        exact h
      | panic =>
        have e1 : s.dstep oc cfg (.failing pi po) = s := by
          simp only [LateOut.dstep, LateOut.step, hn]
          rw [if_neg (by rintro ⟨-, e, he⟩; rw [hn] at he; cases he)]
        rw [e1]
        exact h
    · rw [LateOut.dstep_undecodable s hd]
      exact h.step hval hcyc _ ⟨hd, he hd⟩
  | restart c => exact h.step hval hcyc (.restart c) he
  | call op => exact h.step hval hcyc (.call op) trivial
  | cycle pi => exact h.step hval hcyc (.cycle pi) trivial
  | again => exact h.step hval hcyc .again trivial
  | deliver => exact h.step hval hcyc .deliver trivial
  | lose n => exact h.step hval hcyc (.lose n) trivial

theorem LateGood.drun {s : LateOut} (h : LateGood oc cfg a Good s)
    (hval : ∀ c, ReachableFrom oc cfg c → c.isValidAddr a = true)
    (hcyc : ∀ (c c1 : Coupler) (pi po img : List Word) (last : Option ChannelValue),
      ReachableFrom oc cfg c → c.next oc pi po = (c1, .ok img) → Good last po →
      c1.write a = none ∧ Good ((c.write a).or last) img)
    (hdet : ¬ DetachedSerial cfg a.module)
    (evs : List LateOutEv) (hu : ∀ e ∈ evs, LateOut.Sound oc cfg e) :
    LateGood oc cfg a Good (s.drun oc cfg evs) := by
  induction evs generalizing s with
  | nil => exact h
  | cons e evs ih =>
    exact ih (h.dstep hval hcyc hdet e (hu e List.mem_cons_self))
      fun e he => hu e (List.mem_cons_of_mem _ he)

end

namespace Spec.LateStation

theorem fstep_outputs {oc : Bool} {cfg : CouplerConfig} {w : Wiring} (hw : w.modules ≠ []) {c0 : Coupler}
    (h0 : Coupler.new cfg = .ok c0) {s : LateStation} (hs : s.Paired) (e : LateStationEv) :
    (s.fstep oc cfg w c0 e).Paired ∧
      ∃ evs, (s.fstep oc cfg w c0 e).outputs = s.outputs.drun oc cfg evs ∧
        (SmallImages oc cfg [e] → ∀ e ∈ evs, LateOut.Sound oc cfg e) := by
  have plain : (∀ pi po, e ≠ .ev (.failing pi po)) → (s.step oc w c0 e).Paired ∧
      ∃ evs, (s.step oc w c0 e).outputs = s.outputs.drun oc cfg evs ∧
        (SmallImages oc cfg [e] → ∀ e ∈ evs, LateOut.Sound oc cfg e) := by
    intro he
    obtain ⟨h1, evs, h2, h3⟩ := step_outputs (oc := oc) hw h0 hs e
    have h4 := h3 fun pi po h => by
      simp only [List.mem_cons, List.not_mem_nil, or_false] at h
      exact absurd h.symm (he pi po)
    exact ⟨h1, evs, h2.trans (LateOut.drun_admissible evs h4 _).symm, fun _ e he => (h4 e he).sound⟩
  cases e with
  | set j v => exact plain (by simp)
  | restart pi => exact plain (by simp)
  | ev e =>
    cases e with
    | failing pi po =>
      refine ⟨?_, [.failing pi po], ?_, fun hu e he => ?_⟩
      · have : (s.fstep oc cfg w c0 (.ev (.failing pi po))).net.outs = s.net.outs := by
          simp only [fstep, LateNet.step]
          split <;> rfl
        unfold Paired
        rw [this]
        simp only [fstep]
        split <;> exact hs
      · change _ = LateOut.dstep oc cfg s.outputs (.failing pi po)
        obtain ⟨⟨c, kept, inp, ins, outs, out, cycles, line⟩, ⟨calls, kept', outs', out'⟩⟩ := s
        rcases hn : c.next oc pi po with ⟨c', r⟩
        simp only [fstep, LateOut.dstep, LateNet.step, outputs, LateOut.step, hn]
        by_cases hd : Decodable cfg pi po <;> cases r <;> simp [hd, hn]
      · simp only [List.mem_cons, List.not_mem_nil, or_false] at he
        subst he
        exact hu pi po (by simp)
    | _ => exact plain (by simp)

theorem frun_outputs {oc : Bool} {cfg : CouplerConfig} {w : Wiring} (hw : w.modules ≠ []) {c0 : Coupler}
    (h0 : Coupler.new cfg = .ok c0) (evs : List LateStationEv) {s : LateStation} (hs : s.Paired) :
    (s.frun oc cfg w c0 evs).Paired ∧
      ∃ evs', (s.frun oc cfg w c0 evs).outputs = s.outputs.drun oc cfg evs' ∧
        (SmallImages oc cfg evs → ∀ e ∈ evs', LateOut.Sound oc cfg e) := by
  induction evs generalizing s with
  | nil => exact ⟨hs, [], rfl, fun _ e he => by simp at he⟩
  | cons e evs ih =>
    obtain ⟨h1, l1, e1, a1⟩ := fstep_outputs (oc := oc) hw h0 hs e
    obtain ⟨h2, l2, e2, a2⟩ := ih h1
    refine ⟨h2, l1 ++ l2, ?_, fun hu e he => ?_⟩
    · change ((s.fstep oc cfg w c0 e).frun oc cfg w c0 evs).outputs = _
      rw [e2, e1, LateOut.drun, LateOut.drun, LateOut.drun, List.foldl_append]
    · rcases List.mem_append.1 he with he | he
      · exact a1 (fun pi po h => hu pi po (by
          simp only [List.mem_cons, List.not_mem_nil, or_false] at h
          rw [h]; exact List.mem_cons_self)) e he
      · exact a2 (fun pi po h => hu pi po (List.mem_cons_of_mem _ h)) e he

end Spec.LateStation

theorem not_detached {cfg : CouplerConfig} {j : Nat} {t : ModuleType} {par : List Word} {o i : Word}
    (hcfg : ConfiguredAt cfg j t par o i) (ht : t ≠ .UR20_1COM_232_485_422) : ¬ DetachedSerial cfg j := by
  rintro ⟨par', o', i', h, -⟩
  have := h.1
  rw [hcfg.1] at this
  exact ht (Option.some.inj this)

/-- Every image that is on the way, at the station or kept by the application has the values of the calls
it stands for. -/
theorem LateOut.drun_values (oc : Bool) (cfg : CouplerConfig) (c0 : Coupler) (hc : Coupler.new cfg = .ok c0)
    (img : List Word) (evs : List LateOutEv) (hu : ∀ e ∈ evs, LateOut.Sound oc cfg e)
    (j : Nat) (hdis : OutputsKept cfg j)
    (t : ModuleType) (par : List Word) (o i : Word) (hcfg : ConfiguredAt cfg j t par o i)
    (ht : t ≠ .UR20_1COM_232_485_422) (hno : o ≠ noOffset)
    (hal : o.toNat % 16 = 0 ∨ outputBytes t par = 1) (ch : Nat) (hch : ch < outputChannels t) :
    ∀ x ∈ ((LateOut.start c0 img).drun oc cfg evs).images,
    (∀ v, lastSet ⟨j, ch⟩ x.1 = some v → Settled t par x.2 (outBit o) ch v) ∧
    (lastSet ⟨j, ch⟩ x.1 = none → ∀ v, Settled t par img (outBit o) ch v →
      Settled t par x.2 (outBit o) ch v) := by
  let Good : Option ChannelValue → List Word → Prop := fun last po =>
    (∀ v, last = some v → Settled t par po (outBit o) ch v) ∧
    (last = none → ∀ v, Settled t par img (outBit o) ch v → Settled t par po (outBit o) ch v)
  have hg : LateGood oc cfg ⟨j, ch⟩ Good (LateOut.start c0 img) :=
    LateGood.initial hc ⟨fun v hv => (by cases hv), fun _ v hv => hv⟩
  have key := hg.drun (fun c hr => valid_output hr hcfg hch) ?_ (not_detached hcfg ht) evs hu
  · exact key.good
  intro c c1 pi po img' last hr hn hlast
  have himg := C72_image oc cfg _ hr j hdis pi po img' c1 hn t par o i hcfg ht hno hal ch hch
  refine ⟨C34_consumed oc cfg _ hr pi po img' c1 hn _ (by rw [hcfg.1]; simpa using ht), ?_⟩
  cases hx : c.write ⟨j, ch⟩ with
  | some v =>
    rw [hx] at himg
    refine ⟨fun v' hv => ?_, fun hv => by cases hv⟩
    cases hv
    exact settled_written himg
  | none =>
    rw [hx] at himg
    rw [Option.none_or]
    exact ⟨fun v hv => settled_kept himg (hlast.1 v hv),
      fun hv v hs => settled_kept himg (hlast.2 hv v hs)⟩

/-- The same for the bounds of analog registers. -/
theorem LateOut.drun_analog (oc : Bool) (cfg : CouplerConfig) (c0 : Coupler) (hc : Coupler.new cfg = .ok c0)
    (img : List Word) (evs : List LateOutEv) (hu : ∀ e ∈ evs, LateOut.Sound oc cfg e)
    (j : Nat) (hdis : OutputsKept cfg j)
    (t : ModuleType) (par : List Word) (o i : Word) (hcfg : ConfiguredAt cfg j t par o i)
    (hno : o ≠ noOffset) (hal : o.toNat % 16 = 0) (ch : Nat) (hch : ch < 4)
    (r : AnalogUIRange) (f : DataFormat) (hf : OutputFormat t par ch r f)
    (w0 : Word) (hw0 : img[outBit o / 16 + ch]? = some w0) :
    ∀ x ∈ ((LateOut.start c0 img).drun oc cfg evs).images,
      RecodedFrom r f (outBit o / 16 + ch) w0 (lastSet ⟨j, ch⟩ x.1) x.2 := by
  obtain ⟨ht, hch'⟩ := analog_channels hf hch
  have hg : LateGood oc cfg ⟨j, ch⟩ (RecodedFrom r f (outBit o / 16 + ch) w0) (LateOut.start c0 img) :=
    LateGood.initial hc ⟨fun v hv => (by cases hv), fun _ => ⟨0, hw0⟩⟩
  exact (hg.drun (fun c hr => valid_output hr hcfg hch')
    (RecodedFrom.cycle hdis hcfg ht hno hal hch hf) (not_detached hcfg ht) evs hu).good

section

variable (oc : Bool) (cfg : CouplerConfig) (w : Wiring) (hw : w.modules ≠ []) (s : LateNet)
  (h : s.Started cfg w) (evs : List LateStationEv)

include hw h

/-- Every image that is on the way, at the station or kept by the application has the values of the calls
it stands for. -/
theorem LateStation.images_values (hu : LateStation.SmallImages oc cfg evs)
    (j : Nat) (hdis : OutputsKept cfg j)
    (t : ModuleType) (par : List Word) (o i : Word) (hcfg : ConfiguredAt cfg j t par o i)
    (ht : t ≠ .UR20_1COM_232_485_422) (hno : o ≠ noOffset)
    (hal : o.toNat % 16 = 0 ∨ outputBytes t par = 1) (ch : Nat) (hch : ch < outputChannels t) :
    ∀ x ∈ ((LateStation.start s).frun oc cfg w s.c evs).outputs.images,
    (∀ v, lastSet ⟨j, ch⟩ x.1 = some v → Settled t par x.2 (outBit o) ch v) ∧
    (lastSet ⟨j, ch⟩ x.1 = none → ∀ v, Settled t par s.out (outBit o) ch v →
      Settled t par x.2 (outBit o) ch v) := by
  obtain ⟨h1, h2⟩ := LateStation.start_outputs h
  obtain ⟨-, evs', e1, e2⟩ := LateStation.frun_outputs (oc := oc) hw h.c evs h1
  rw [h2] at e1
  rw [e1]
  exact LateOut.drun_values oc cfg s.c h.c s.out evs' (e2 hu) j hdis t par o i hcfg ht hno hal ch hch

/-- C156, values: whatever is late or lost and whatever cycles fail, the station has for every output
channel of a module that is not serial the value of the last `set_output` of the calls made before the
cycle its image comes from. The calls that count are those that no failing cycle has discarded; what was
on at the start stays if there is none. -/
theorem C156_values (hu : LateStation.SmallImages oc cfg evs)
    (j : Nat) (hdis : OutputsKept cfg j)
    (t : ModuleType) (par : List Word) (o i : Word) (hcfg : ConfiguredAt cfg j t par o i)
    (ht : t ≠ .UR20_1COM_232_485_422) (hno : o ≠ noOffset)
    (hal : o.toNat % 16 = 0 ∨ outputBytes t par = 1) (ch : Nat) (hch : ch < outputChannels t) :
    let r := (LateStation.start s).frun oc cfg w s.c evs
    (∀ v, lastSet ⟨j, ch⟩ r.stamps.out = some v → Settled t par r.net.out (outBit o) ch v) ∧
    (lastSet ⟨j, ch⟩ r.stamps.out = none → ∀ v, Settled t par s.out (outBit o) ch v →
      Settled t par r.net.out (outBit o) ch v) := by
  intro r
  exact LateStation.images_values oc cfg w hw s h evs hu j hdis t par o i hcfg ht hno hal ch hch
    (r.stamps.out, r.net.out) (by simp [LateOut.images, LateStation.outputs, r])

/-- The same for the bounds of analog registers. -/
theorem LateStation.images_analog (hu : LateStation.SmallImages oc cfg evs)
    (j : Nat) (hdis : OutputsKept cfg j)
    (t : ModuleType) (par : List Word) (o i : Word) (hcfg : ConfiguredAt cfg j t par o i)
    (hno : o ≠ noOffset) (hal : o.toNat % 16 = 0) (ch : Nat) (hch : ch < 4)
    (r : AnalogUIRange) (f : DataFormat) (hf : OutputFormat t par ch r f)
    (w0 : Word) (hw0 : s.out[outBit o / 16 + ch]? = some w0) :
    ∀ x ∈ ((LateStation.start s).frun oc cfg w s.c evs).outputs.images,
      RecodedFrom r f (outBit o / 16 + ch) w0 (lastSet ⟨j, ch⟩ x.1) x.2 := by
  obtain ⟨h1, h2⟩ := LateStation.start_outputs h
  obtain ⟨-, evs', e1, e2⟩ := LateStation.frun_outputs (oc := oc) hw h.c evs h1
  rw [h2] at e1
  rw [e1]
  exact LateOut.drun_analog oc cfg s.c h.c s.out evs' (e2 hu) j hdis t par o i hcfg hno hal ch hch r f hf w0
    hw0

/-- C156 with the bounds of C107: the register of an enabled analog output channel is within 2 or 5
steps, depending on the range, of the encoded value. -/
theorem C156_analog (hu : LateStation.SmallImages oc cfg evs)
    (j : Nat) (hdis : OutputsKept cfg j)
    (t : ModuleType) (par : List Word) (o i : Word) (hcfg : ConfiguredAt cfg j t par o i)
    (hno : o ≠ noOffset) (hal : o.toNat % 16 = 0) (ch : Nat) (hch : ch < 4)
    (r : AnalogUIRange) (f : DataFormat) (hf : OutputFormat t par ch r f) (hen : r ≠ .Disabled)
    (w0 : Word) (hw0 : s.out[outBit o / 16 + ch]? = some w0) :
    let st := (LateStation.start s).frun oc cfg w s.c evs
    (∀ v, lastSet ⟨j, ch⟩ st.stamps.out = some v → ∃ (w : Word) (e : ℤ),
      st.net.out[outBit o / 16 + ch]? = some w ∧
      ((∃ x, v = .decimal32 x ∧ EncodedAs (r, f) x e) ∨ (v = .disabled ∧ e = 0)) ∧
      |w.toInt - e| ≤ maxDrift r) ∧
    (lastSet ⟨j, ch⟩ st.stamps.out = none →
      ∃ w : Word, st.net.out[outBit o / 16 + ch]? = some w ∧ |w.toInt - w0.toInt| ≤ maxDrift r) := by
  intro st
  exact (LateStation.images_analog oc cfg w hw s h evs hu j hdis t par o i hcfg hno hal ch hch r f hf w0 hw0
    (st.stamps.out, st.net.out) (by simp [LateOut.images, LateStation.outputs, st])).bounds hen

/-- C156, order: the image of the station carries the values of some of the calls that count, and in the
course of a schedule the station never goes back to an older one. -/
theorem C156_order (evs' : List LateStationEv) :
    let r := (LateStation.start s).frun oc cfg w s.c evs
    r.stamps.out <+: r.stamps.calls ∧ r.stamps.out <+: (r.frun oc cfg w s.c evs').stamps.out := by
  intro r
  obtain ⟨h1, h2⟩ := LateStation.start_outputs h
  obtain ⟨p1, l1, e1, -⟩ := LateStation.frun_outputs (oc := oc) hw h.c evs h1
  obtain ⟨-, l2, e2, -⟩ := LateStation.frun_outputs (oc := oc) hw h.c evs' p1
  rw [h2] at e1
  have o1 := ((LateOut.ordered_start s.c s.out).drun (oc := oc) (cfg := cfg) l1).1
  rw [← e1] at o1
  have o2 := (o1.drun (oc := oc) (cfg := cfg) l2).2
  rw [← e2] at o2
  exact ⟨(o1.le_kept (x := (r.stamps.out, r.net.out))
    (by simp [LateOut.images, LateStation.outputs, r])).trans o1.2, o2⟩

/-- C156, progress: when nothing is on the way any more, one round whose cycle succeeds brings the values
of all calls that count to the station. -/
theorem C156_progress (pi img : List Word) :
    let r := (LateStation.start s).frun oc cfg w s.c evs
    r.net.ins = [] → r.net.outs = [] → r.net.Shows w pi → (r.net.c.next oc pi r.net.kept).2 = .ok img →
    let r' := r.run oc w s.c (LateStation.round pi)
    r'.stamps.out = r.stamps.calls ∧ r'.stamps.calls = r.stamps.calls ∧ r'.net.out = img := by
  intro r hi hos hsh hn r'
  have hst : r.stamps.outs = [] := by
    have := (LateStation.frun_outputs (oc := oc) hw h.c evs (LateStation.start_outputs h).1).1
    exact List.length_eq_zero_iff.1 (by rw [show r.stamps.outs.length = _ from this, hos]; rfl)
  rcases hx : r.net.c.next oc pi r.net.kept with ⟨c', x⟩
  rw [hx] at hn
  subst hn
  have e1 : r.net.step oc w (.sample pi) = { r.net with ins := [pi] } := by
    simp [LateNet.step, hsh, hi]
  simp only [r', LateStation.run, LateStation.round, List.foldl_cons, List.foldl_nil, LateStation.step,
    Stamps.step, e1]
  simp only [LateNet.step, hx]
  simp [hos, hst]

end

/-! ### An example -/

theorem Spec.LateStation.frun_plain (oc : Bool) (cfg : CouplerConfig) (w : Wiring) (c : Coupler)
    (evs : List LateStationEv) (h : ∀ e ∈ evs, ∀ pi po, e ≠ .ev (.failing pi po)) (s : LateStation) :
    s.frun oc cfg w c evs = s.run oc w c evs := by
  induction evs generalizing s with
  | nil => rfl
  | cons e evs ih =>
    have h1 : s.fstep oc cfg w c e = s.step oc w c e := by
      have he := h e List.mem_cons_self
      cases e with
      | ev e =>
        cases e with
        | failing pi po => exact absurd rfl (he pi po)
        | _ => rfl
      | _ => rfl
    change (s.fstep oc cfg w c e).frun oc cfg w c evs = (s.step oc w c e).run oc w c evs
    rw [h1, ih fun e he => h e (List.mem_cons_of_mem _ he)]

/-- The first output is switched on; the second one too, but a value of the wrong kind is set on the
third … -/
def exDropBefore : List LateStationEv :=
  [.ev (.other (.setOutput ⟨0, 0⟩ (.bit true))), .ev .cycle, .ev .deliver,
    .ev (.other (.setOutput ⟨0, 1⟩ (.bit true))), .ev (.other (.setOutput ⟨0, 2⟩ (.bytes [1#8])))]

/-- … so that the next cycle fails; then the fourth output is switched on. -/
def exDropEvs : List LateStationEv :=
  exDropBefore ++ [.ev (.failing (List.replicate 8 0#16) exFailImage),
    .ev (.other (.setOutput ⟨0, 3⟩ (.bit true)))]

theorem exDropEvs_small : LateStation.SmallImages true exDuo exDropEvs := fun _ _ _ _ h => by cases h

theorem exDropEvs_run :
    let s := (LateStation.start exLateNet).run true exWires exLateNet.c exDropBefore
    (LateStation.start exLateNet).frun true exDuo exWires exLateNet.c exDropEvs =
      (⟨{ s.net with c := (s.net.c.next true (List.replicate 8 0#16) exFailImage).1 },
        { s.stamps with calls := s.stamps.kept }⟩ : LateStation).run true exWires exLateNet.c
          [.ev (.other (.setOutput ⟨0, 3⟩ (.bit true)))] := by
  intro s
  have hn : (s.net.c.next true (List.replicate 8 0#16) exFailImage).2 = .err .channelValue := by
    decide +kernel
  have h1 : (LateStation.start exLateNet).frun true exDuo exWires exLateNet.c exDropBefore = s :=
    LateStation.frun_plain _ _ _ _ _ (by simp [exDropBefore]) _
  have h2 : s.fstep true exDuo exWires exLateNet.c (.ev (.failing (List.replicate 8 0#16) exFailImage)) =
      ⟨{ s.net with c := (s.net.c.next true (List.replicate 8 0#16) exFailImage).1 },
        { s.stamps with calls := s.stamps.kept }⟩ := by
    simp only [LateStation.fstep, LateNet.step]
    rw [if_pos ⟨exDuo_decodable, _, hn⟩]
    rcases hx : s.net.c.next true (List.replicate 8 0#16) exFailImage with ⟨c', x⟩
    rw [hx] at hn
    subst hn
    rfl
  rw [exDropEvs, LateStation.frun, List.foldl_append,
    show List.foldl _ _ exDropBefore = s from h1, List.foldl_cons, h2]
  exact LateStation.frun_plain _ _ _ _ _ (by simp) _

noncomputable def exDropRun : LateStation :=
  (LateStation.start exLateNet).frun true exDuo exWires exLateNet.c exDropEvs

/-- What was set before the failing cycle is discarded. -/
theorem exDropRun_good : exDropRun.net.ins = [] ∧ exDropRun.net.outs = [] ∧
    exDropRun.net.Shows exWires (List.replicate 8 0#16) ∧ exDropRun.stamps.calls.length = 2 ∧
    lastSet ⟨0, 1⟩ exDropRun.stamps.calls = none ∧
    ((exDropRun.net.c.next true (List.replicate 8 0#16) exDropRun.net.kept).2.map (·[0]?)) =
      .ok (some 9#16) := by
  unfold exDropRun
  rw [exDropEvs_run]
  decide +kernel

example := C156_values true exDuo exWires (by decide) exLateNet exLateNet_started exDropEvs exDropEvs_small
  0 exDuo_kept .UR20_4DO_P (List.replicate 4 0) 0x8000#16 noOffset
  ⟨rfl, rfl, rfl, rfl⟩ (by decide) (by decide) (.inl (by decide)) 0 (by decide)

example := C156_order true exDuo exWires (by decide) exLateNet exLateNet_started exDropEvs [.ev .cycle]

/-- The next image has the first and the fourth output on, not the second. -/
example : ∃ img, img[0]? = some 9#16 ∧
    (exDropRun.run true exWires exLateNet.c (LateStation.round (List.replicate 8 0#16))).net.out = img := by
  obtain ⟨g1, g2, g3, -, -, g4⟩ := exDropRun_good
  cases hn : (exDropRun.net.c.next true (List.replicate 8 0#16) exDropRun.net.kept).2 with
  | ok img =>
    rw [hn] at g4
    exact ⟨img, Res.ok.inj g4, (C156_progress true exDuo exWires (by decide) exLateNet exLateNet_started
      exDropEvs _ img g1 g2 g3 hn).2.2⟩
  | err e => rw [hn] at g4; cases g4
  | panic => rw [hn] at g4; cases g4

example (c : Coupler) (h : Coupler.new exAoCom = .ok c) :=
  C156_analog true exAoCom exAoComWires (by decide) (exAoComNet c) (exAoComNet_started h) exAoComEvs
    (fun _ _ _ _ h => by cases h) 0 (exAoCom_outputs 0) .UR20_4AO_UI_16 _ 0x8000#16 _
    ⟨rfl, rfl, rfl, rfl⟩ (by decide) (by decide) 0 (by decide) .mA0To20 .S7 ⟨⟨_, rfl, rfl⟩, ⟨_, rfl, rfl⟩⟩
    (by decide) 45#16 rfl

end Ur20
