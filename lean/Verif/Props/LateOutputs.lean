import Verif.Spec.LateOutputs
import Verif.Props.AnalogHeld
import Verif.Props.Isolation
import Verif.Props.Pending

/-! # Output values with late and lost images: C130 -/

namespace Ur20

open Spec Com Coupler
open scoped List

namespace Spec.LateOut

/-- The images in the order in which they were sent. -/
def images (s : LateOut) : List (List COp × List Word) := s.out :: s.outs ++ [s.kept]

/-- The later an image was sent the more calls were made before it. -/
def Ordered (s : LateOut) : Prop :=
  List.Pairwise (fun x y => x.1 <+: y.1) s.images ∧ s.kept.1 <+: s.calls

theorem Ordered.out_le {s : LateOut} (h : s.Ordered) {x : List COp × List Word} (hx : x ∈ s.outs) :
    s.out.1 <+: x.1 := by
  have := (List.pairwise_cons.1 h.1).1
  exact this x (by simp [hx])

theorem Ordered.le_kept {s : LateOut} (h : s.Ordered) {x : List COp × List Word} (hx : x ∈ s.images) :
    x.1 <+: s.kept.1 := by
  have h1 := h.1
  unfold images at h1 hx
  rcases List.mem_append.1 hx with hx | hx
  · exact (List.pairwise_append.1 h1).2.2 x hx s.kept (by simp)
  · rcases List.mem_singleton.1 hx with rfl
    exact List.prefix_refl _

theorem Ordered.step {oc : Bool} {s : LateOut} (h : s.Ordered) (e : LateOutEv) :
    (s.step oc e).Ordered ∧ s.out.1 <+: (s.step oc e).out.1 := by
  have stay : s.Ordered ∧ s.out.1 <+: s.out.1 := ⟨h, List.prefix_refl _⟩
  cases e with
  | call op =>
    cases op with
    | next _ _ => exact stay
    | setOutput _ _ => exact ⟨⟨h.1, h.2.trans (List.prefix_append _ _)⟩, List.prefix_refl _⟩
    | read _ _ => exact ⟨⟨h.1, h.2.trans (List.prefix_append _ _)⟩, List.prefix_refl _⟩
    | write _ _ => exact ⟨⟨h.1, h.2.trans (List.prefix_append _ _)⟩, List.prefix_refl _⟩
  | cycle pi =>
    simp only [LateOut.step]
    split
    · rename_i c' img hn
      refine ⟨⟨?_, List.prefix_refl _⟩, List.prefix_refl _⟩
      have h1 := h.1
      unfold images at h1 ⊢
      simp only [← List.cons_append]
      rw [List.pairwise_append] at h1
      have hk : ∀ x ∈ s.out :: s.outs, x.1 <+: s.calls := fun x hx =>
        (h.le_kept (x := x) (by unfold images; exact List.mem_append_left _ hx)).trans h.2
      rw [List.pairwise_append, List.pairwise_append]
      refine ⟨⟨h1.1, List.pairwise_singleton _ _, fun x hx y hy => ?_⟩, List.pairwise_singleton _ _,
        fun x hx y hy => ?_⟩
      · rcases List.mem_singleton.1 hy with rfl
        exact hk x hx
      · rcases List.mem_singleton.1 hy with rfl
        rcases List.mem_append.1 hx with hx | hx
        · exact hk x hx
        · rcases List.mem_singleton.1 hx with rfl
          exact List.prefix_refl _
    · exact stay
  | failing pi po =>
    simp only [LateOut.step]
    split
    · exact stay
    · exact stay
  | again =>
    refine ⟨⟨?_, h.2⟩, List.prefix_refl _⟩
    unfold images
    simp only [LateOut.step, ← List.cons_append]
    rw [List.pairwise_append]
    refine ⟨h.1, List.pairwise_singleton _ _, fun x hx y hy => ?_⟩
    rcases List.mem_singleton.1 hy with rfl
    exact h.le_kept hx
  | deliver =>
    simp only [LateOut.step]
    split
    · rename_i o outs ho
      refine ⟨⟨?_, h.2⟩, h.out_le (by rw [ho]; exact List.mem_cons_self)⟩
      have h1 := h.1
      unfold images at h1 ⊢
      rw [ho] at h1
      exact (List.pairwise_cons.1 h1).2
    · exact stay
  | lose n =>
    refine ⟨⟨?_, h.2⟩, List.prefix_refl _⟩
    refine List.Pairwise.sublist ?_ h.1
    unfold images
    exact ((List.eraseIdx_sublist s.outs n).cons_cons s.out).append (List.Sublist.refl _)
  | restart c =>
    exact ⟨⟨by simp [images, LateOut.step], List.prefix_refl _⟩, List.prefix_refl _⟩

theorem Ordered.run {oc : Bool} {s : LateOut} (h : s.Ordered) (evs : List LateOutEv) :
    (s.run oc evs).Ordered ∧ s.out.1 <+: (s.run oc evs).out.1 := by
  induction evs generalizing s with
  | nil => exact ⟨h, List.prefix_refl _⟩
  | cons e evs ih =>
    obtain ⟨h1, h2⟩ := h.step (oc := oc) e
    obtain ⟨h3, h4⟩ := ih h1
    exact ⟨h3, h2.trans h4⟩

theorem ordered_start (c : Coupler) (img : List Word) : (start c img).Ordered :=
  ⟨by simp [images, start], List.prefix_refl _⟩

end Spec.LateOut

open Spec.LateOut in
/-- C130, order: the device has the image of a cycle, with the values of some of the calls made so far,
and in the course of a schedule it never goes back to an older one. -/
theorem C130_order (oc : Bool) (c0 : Coupler) (img : List Word) (evs evs' : List LateOutEv) :
    ((start c0 img).run oc evs).out.1 <+: ((start c0 img).run oc evs).calls ∧
    ((start c0 img).run oc evs).out.1 <+: ((start c0 img).run oc (evs ++ evs')).out.1 := by
  obtain ⟨h1, -⟩ := (ordered_start c0 img).run (oc := oc) evs
  refine ⟨(h1.le_kept (by simp [images])).trans h1.2, ?_⟩
  have := (h1.run (oc := oc) evs').2
  simpa only [LateOut.run, List.foldl_append] using this

section

variable {oc : Bool} {cfg : CouplerConfig} {a : Address} {Good : Option ChannelValue → List Word → Prop}

/-- Every image is as good as the calls before it demand, and what was set since the last cycle is
pending. -/
structure LateGood (oc : Bool) (cfg : CouplerConfig) (a : Address)
    (Good : Option ChannelValue → List Word → Prop) (s : LateOut) : Prop where
  reach : ReachableFrom oc cfg s.c
  pending : ∃ since, s.calls = s.kept.1 ++ since ∧ s.c.write a = lastSet a since
  good : ∀ x ∈ s.images, Good (lastSet a x.1) x.2

theorem LateGood.step {s : LateOut} (h : LateGood oc cfg a Good s)
    (hval : ∀ c, ReachableFrom oc cfg c → c.isValidAddr a = true)
    (hcyc : ∀ (c c1 : Coupler) (pi po img : List Word) (last : Option ChannelValue),
      ReachableFrom oc cfg c → c.next oc pi po = (c1, .ok img) → Good last po →
      c1.write a = none ∧ Good ((c.write a).or last) img)
    (e : LateOutEv)
    (he : LateOut.Admissible oc cfg e) :
    LateGood oc cfg a Good (s.step oc e) := by
  have hv := hval s.c h.reach
  obtain ⟨since, hs1, hs2⟩ := h.pending
  have called : ∀ op : COp, op.IsCall → LateGood oc cfg a Good
      { s with c := op.apply oc s.c, calls := s.calls ++ [op] } := by
    intro op hop
    refine ⟨reachable_run h.reach [op], ⟨since ++ [op], by simp [hs1], ?_⟩, h.good⟩
    have := write_calls (oc := oc) hv (calls := [op]) (by simpa using hop)
    rw [lastSet_append, ← hs2]
    exact this
  cases e with
  | call op =>
    cases op with
    | next _ _ => exact h
    | setOutput _ _ => exact called _ trivial
    | read _ _ => exact called _ trivial
    | write _ _ => exact called _ trivial
  | cycle pi =>
    simp only [LateOut.step]
    split
    · rename_i c' img hn
      obtain ⟨g1, g2⟩ := hcyc _ _ _ _ _ _ h.reach hn (h.good s.kept (by simp [LateOut.images]))
      have hr := reachable_run h.reach [.next pi s.kept.2]
      simp only [runC, List.foldl, COp.apply, hn] at hr
      rw [hs2, ← lastSet_append, ← hs1] at g2
      refine ⟨hr, ⟨[], by simp, by rw [g1]; rfl⟩, fun x hx => ?_⟩
      unfold LateOut.images at hx
      simp only [← List.cons_append, List.mem_append, List.mem_singleton] at hx
      rcases hx with (hx | rfl) | rfl
      · exact h.good x (by unfold LateOut.images; exact List.mem_append_left _ hx)
      · exact g2
      · exact g2
    · exact h
  | failing pi po =>
    obtain ⟨hu, hsz⟩ := he
    have ha := undecoded_agree h.reach hsz hu a.module
    simp only [LateOut.step]
    split
    · rename_i c' er hn
      have hr := reachable_run h.reach [.next pi po]
      simp only [runC, List.foldl, COp.apply, hn] at hr
      rw [hn] at ha
      exact ⟨hr, ⟨since, hs1, (ha.1 a.channel).trans hs2⟩, h.good⟩
    · exact h
  | again =>
    refine ⟨h.reach, ⟨since, hs1, hs2⟩, fun x hx => h.good x ?_⟩
    simp only [LateOut.images, LateOut.step, ← List.cons_append, List.mem_append,
      List.mem_singleton] at hx ⊢
    rcases hx with (hx | hx) | hx
    · exact .inl hx
    · exact .inr hx
    · exact .inr hx
  | deliver =>
    simp only [LateOut.step]
    split
    · rename_i o outs ho
      refine ⟨h.reach, ⟨since, hs1, hs2⟩, fun x hx => h.good x ?_⟩
      simp only [LateOut.images, ho] at hx ⊢
      exact List.mem_cons_of_mem _ hx
    · exact h
  | lose n =>
    refine ⟨h.reach, ⟨since, hs1, hs2⟩, fun x hx => h.good x ?_⟩
    have hsub : ({ s with outs := s.outs.eraseIdx n } : LateOut).images <+ s.images := by
      unfold LateOut.images
      exact ((List.eraseIdx_sublist s.outs n).cons_cons s.out).append (List.Sublist.refl _)
    exact hsub.mem hx
  | restart c =>
    have hc : Coupler.new cfg = .ok c := he
    refine ⟨⟨c, [], hc, rfl⟩, ⟨[], by simp [LateOut.step], ((C13_success cfg).2 c hc).2.2.2.2.2 a⟩,
      fun x hx => h.good x ?_⟩
    simp only [LateOut.images, LateOut.step, List.cons_append, List.nil_append, List.mem_cons,
      List.not_mem_nil, or_false, or_self] at hx
    subst hx
    simp [LateOut.images]

theorem LateGood.run {s : LateOut} (h : LateGood oc cfg a Good s)
    (hval : ∀ c, ReachableFrom oc cfg c → c.isValidAddr a = true)
    (hcyc : ∀ (c c1 : Coupler) (pi po img : List Word) (last : Option ChannelValue),
      ReachableFrom oc cfg c → c.next oc pi po = (c1, .ok img) → Good last po →
      c1.write a = none ∧ Good ((c.write a).or last) img)
    (evs : List LateOutEv) (hu : ∀ e ∈ evs, LateOut.Admissible oc cfg e) :
    LateGood oc cfg a Good (s.run oc evs) := by
  induction evs generalizing s with
  | nil => exact h
  | cons e evs ih =>
    exact ih (h.step hval hcyc e (hu e List.mem_cons_self)) fun e he => hu e (List.mem_cons_of_mem _ he)

theorem LateGood.initial {c0 : Coupler} (h0 : Coupler.new cfg = .ok c0) {img : List Word}
    (hg : Good none img) : LateGood oc cfg a Good (LateOut.start c0 img) where
  reach := ⟨c0, [], h0, rfl⟩
  pending := ⟨[], rfl, ((C13_success cfg).2 c0 h0).2.2.2.2.2 a⟩
  good := fun x hx => by
    simp only [LateOut.images, LateOut.start, List.cons_append, List.nil_append, List.mem_cons,
      List.not_mem_nil, or_false, or_self] at hx
    subst hx
    exact hg

end

/-- C130, values: whatever is late or lost, the device has the value of the last `set_output` of the
calls made before the cycle its image comes from, and what it had on at the start if there was none. -/
theorem C130_values (oc : Bool) (cfg : CouplerConfig) (c0 : Coupler)
    (h0 : Coupler.new cfg = .ok c0) (j : Nat) (hdis : OutputsKept cfg j)
    (t : ModuleType) (par : List Word) (o i : Word) (hcfg : ConfiguredAt cfg j t par o i)
    (ht : t ≠ .UR20_1COM_232_485_422) (hno : o ≠ noOffset)
    (hal : o.toNat % 16 = 0 ∨ outputBytes t par = 1) (ch : Nat) (hch : ch < outputChannels t)
    (img : List Word) (evs : List LateOutEv) (hu : ∀ e ∈ evs, LateOut.Admissible oc cfg e) :
    let device := ((LateOut.start c0 img).run oc evs).out
    (∀ v, lastSet ⟨j, ch⟩ device.1 = some v → Settled t par device.2 (outBit o) ch v) ∧
    (lastSet ⟨j, ch⟩ device.1 = none → ∀ v, Settled t par img (outBit o) ch v →
      Settled t par device.2 (outBit o) ch v) := by
  intro device
  let Good : Option ChannelValue → List Word → Prop := fun last po =>
    (∀ v, last = some v → Settled t par po (outBit o) ch v) ∧
    (last = none → ∀ v, Settled t par img (outBit o) ch v → Settled t par po (outBit o) ch v)
  have hg : LateGood oc cfg ⟨j, ch⟩ Good (LateOut.start c0 img) :=
    LateGood.initial h0 ⟨fun v hv => (by cases hv), fun _ v hv => hv⟩
  refine (hg.run (fun c hr => valid_output hr hcfg hch) ?_ evs hu).good device
    (by simp [LateOut.images, device])
  intro c c1 pi po img' last hr hn hlast
  have himg := C72_image oc cfg _ hr j hdis pi po img' c1 hn t par o i hcfg ht hno hal ch hch
  refine ⟨C34_consumed oc cfg _ hr pi po img' c1 hn _ (by rw [hcfg.1]; simpa using ht), ?_⟩
  cases hw : c.write ⟨j, ch⟩ with
  | some v =>
    rw [hw] at himg
    refine ⟨fun v' hv => ?_, fun hv => by cases hv⟩
    cases hv
    exact settled_written himg
  | none =>
    rw [hw] at himg
    rw [Option.none_or]
    exact ⟨fun v hv => settled_kept himg (hlast.1 v hv),
      fun hv v hs => settled_kept himg (hlast.2 hv v hs)⟩

/-- The register of an analog output channel if `last` was set last; `w0` was there at the start. -/
def RecodedFrom (r : AnalogUIRange) (f : DataFormat) (k : Nat) (w0 : Word) (last : Option ChannelValue)
    (po : List Word) : Prop :=
  (∀ v, last = some v → ∃ (w : Word) (n : Nat), Carries (r, f) v w ∧
    po[k]? = some ((recode (r, f))^[n] w)) ∧
  (last = none → ∃ n : Nat, po[k]? = some ((recode (r, f))^[n] w0))

theorem RecodedFrom.cycle {oc : Bool} {cfg : CouplerConfig} {j : Nat} (hdis : OutputsKept cfg j)
    {t : ModuleType} {par : List Word} {o i : Word} (hcfg : ConfiguredAt cfg j t par o i)
    (ht : t ≠ .UR20_1COM_232_485_422)
    (hno : o ≠ noOffset) (hal : o.toNat % 16 = 0) {ch : Nat} (hch : ch < 4)
    {r : AnalogUIRange} {f : DataFormat} (hf : OutputFormat t par ch r f) {w0 : Word}
    (c c1 : Coupler) (pi po img' : List Word) (last : Option ChannelValue)
    (hr : ReachableFrom oc cfg c) (hn : c.next oc pi po = (c1, .ok img'))
    (hlast : RecodedFrom r f (outBit o / 16 + ch) w0 last po) :
    c1.write ⟨j, ch⟩ = none ∧
      RecodedFrom r f (outBit o / 16 + ch) w0 ((c.write ⟨j, ch⟩).or last) img' := by
  refine ⟨C34_consumed oc cfg _ hr pi po img' c1 hn _ (by rw [hcfg.1]; simpa using ht), ?_⟩
  obtain ⟨w, w', h1, h2, h3⟩ := analog_cycle_cfg hr hdis hn hcfg hno hal hch hf
  cases hw : c.write ⟨j, ch⟩ with
  | some v =>
    rw [hw] at h3
    refine ⟨fun v' hv => ?_, fun hv => by cases hv⟩
    cases hv
    refine ⟨w', 0, ?_, h2⟩
    have := analog_written (p := (r, f)) (w := w) (pending := some v) h3
    cases v <;> simp only [AnalogWritten] at this <;> try exact absurd this id
    · exact .inl ⟨_, rfl, this⟩
    · exact .inr ⟨rfl, by rw [this]; rfl⟩
  | none =>
    rw [hw] at h3
    have h3 := recode_of_idle (p := (r, f)) h3
    rw [Option.none_or]
    refine ⟨fun v hv => ?_, fun hv => ?_⟩
    · obtain ⟨u, n, b1, b2⟩ := hlast.1 v hv
      rw [h1] at b2
      refine ⟨u, n + 1, b1, ?_⟩
      rw [h2, h3, Option.some.inj b2, Function.iterate_succ_apply']
    · obtain ⟨n, b2⟩ := hlast.2 hv
      rw [h1] at b2
      refine ⟨n + 1, ?_⟩
      rw [h2, h3, Option.some.inj b2, Function.iterate_succ_apply']

theorem RecodedFrom.bounds {r : AnalogUIRange} {f : DataFormat} (hen : r ≠ .Disabled) {k : Nat} {w0 : Word}
    {last : Option ChannelValue} {po : List Word} (h : RecodedFrom r f k w0 last po) :
    (∀ v, last = some v → ∃ (w : Word) (e : ℤ), po[k]? = some w ∧
      ((∃ x, v = .decimal32 x ∧ EncodedAs (r, f) x e) ∨ (v = .disabled ∧ e = 0)) ∧
      |w.toInt - e| ≤ maxDrift r) ∧
    (last = none → ∃ w : Word, po[k]? = some w ∧ |w.toInt - w0.toInt| ≤ maxDrift r) := by
  obtain ⟨a1, a2⟩ := h
  refine ⟨fun v hv => ?_, fun hv => ?_⟩
  · obtain ⟨w, n, b1, b2⟩ := a1 v hv
    exact ⟨_, w.toInt, b2, b1, (recode_settles hen f w n).1⟩
  · obtain ⟨n, b2⟩ := a2 hv
    exact ⟨_, b2, (recode_settles hen f w0 n).1⟩

/-- C130 with the bounds of C107: the register of an enabled analog output channel is within 2 or 5
steps, depending on the range, of the encoded value. -/
theorem C130_analog (oc : Bool) (cfg : CouplerConfig) (c0 : Coupler)
    (h0 : Coupler.new cfg = .ok c0) (j : Nat) (hdis : OutputsKept cfg j)
    (t : ModuleType) (par : List Word) (o i : Word) (hcfg : ConfiguredAt cfg j t par o i)
    (hno : o ≠ noOffset) (hal : o.toNat % 16 = 0) (ch : Nat) (hch : ch < 4)
    (r : AnalogUIRange) (f : DataFormat) (hf : OutputFormat t par ch r f) (hen : r ≠ .Disabled)
    (img : List Word) (evs : List LateOutEv) (hu : ∀ e ∈ evs, LateOut.Admissible oc cfg e)
    (w0 : Word) (hw0 : img[outBit o / 16 + ch]? = some w0) :
    let device := ((LateOut.start c0 img).run oc evs).out
    (∀ v, lastSet ⟨j, ch⟩ device.1 = some v → ∃ (w : Word) (e : ℤ),
      device.2[outBit o / 16 + ch]? = some w ∧
      ((∃ x, v = .decimal32 x ∧ EncodedAs (r, f) x e) ∨ (v = .disabled ∧ e = 0)) ∧
      |w.toInt - e| ≤ maxDrift r) ∧
    (lastSet ⟨j, ch⟩ device.1 = none →
      ∃ w : Word, device.2[outBit o / 16 + ch]? = some w ∧ |w.toInt - w0.toInt| ≤ maxDrift r) := by
  intro device
  obtain ⟨ht, hch'⟩ := analog_channels hf hch
  have hg : LateGood oc cfg ⟨j, ch⟩ (RecodedFrom r f (outBit o / 16 + ch) w0) (LateOut.start c0 img) :=
    LateGood.initial h0 ⟨fun v hv => (by cases hv), fun _ => ⟨0, hw0⟩⟩
  exact ((hg.run (fun c hr => valid_output hr hcfg hch') (RecodedFrom.cycle hdis hcfg ht hno hal hch hf)
    evs hu).good device (by simp [LateOut.images, device])).bounds hen

theorem lateOut_deliver (oc : Bool) (outs : List (List COp × List Word)) (s : LateOut)
    (x : List COp × List Word) (h : s.outs = outs ++ [x]) :
    (s.run oc (List.replicate (outs.length + 1) .deliver)).out = x := by
  induction outs generalizing s with
  | nil =>
    change (s.step oc .deliver).out = x
    simp only [LateOut.step, h, List.nil_append]
  | cons y outs ih =>
    have : s.step oc .deliver = { s with out := y, outs := outs ++ [x] } := by
      simp only [LateOut.step, h, List.cons_append]
    change LateOut.out ((s.step oc .deliver).run oc (List.replicate (outs.length + 1) .deliver)) = x
    rw [this]
    exact ih _ rfl

/-- C130, arrival: whatever was late or lost before, if a cycle succeeds and the images on the way then
arrive, the device has an image with the values of all calls made. -/
theorem C130_arrives (oc : Bool) (c0 : Coupler) (img : List Word) (evs : List LateOutEv)
    (pi new : List Word)
    (hn : (((LateOut.start c0 img).run oc evs).c.next oc pi
      ((LateOut.start c0 img).run oc evs).kept.2).2 = .ok new) :
    let s := (LateOut.start c0 img).run oc evs
    (s.run oc (.cycle pi :: List.replicate (s.outs.length + 1) .deliver)).out = (s.calls, new) := by
  intro s
  have hs : s.step oc (.cycle pi) = { s with
      c := (s.c.next oc pi s.kept.2).1, kept := (s.calls, new), outs := s.outs ++ [(s.calls, new)] } := by
    have : s.c.next oc pi s.kept.2 = ((s.c.next oc pi s.kept.2).1, .ok new) := Prod.ext rfl hn
    simp only [LateOut.step]
    rw [this]
  change LateOut.out ((s.step oc (.cycle pi)).run oc (List.replicate (s.outs.length + 1) .deliver)) = _
  exact lateOut_deliver oc s.outs _ _ (by rw [hs])

/-- C130, arrival of an image that is sent again: it has the values of all calls made before the last
successful cycle. -/
theorem C130_again (oc : Bool) (c0 : Coupler) (img : List Word) (evs : List LateOutEv) :
    let s := (LateOut.start c0 img).run oc evs
    (s.run oc (.again :: List.replicate (s.outs.length + 1) .deliver)).out = s.kept := by
  intro s
  change LateOut.out ((s.step oc .again).run oc (List.replicate (s.outs.length + 1) .deliver)) = _
  exact lateOut_deliver oc s.outs _ _ rfl

/-- Relays 1 and 2 are switched on, then relay 1 off; the second image is lost and the first one late:
the device first has both on, and with the next image only the second. -/
def exLateOut : List LateOutEv :=
  [.call (.setOutput ⟨0, 0⟩ (.bit true)), .call (.setOutput ⟨0, 1⟩ (.bit true)), .cycle [],
    .call (.setOutput ⟨0, 0⟩ (.bit false)), .cycle [], .lose 1, .deliver]

example : ∃ c, Coupler.new exRelay = .ok c ∧
    ((LateOut.start c [0#16]).run true exLateOut).out.2 = [3#16] ∧
    ((LateOut.start c [0#16]).run true exLateOut).out.1.length = 2 ∧
    ((LateOut.start c [0#16]).run true (exLateOut ++ [.again, .deliver])).out.2 = [2#16] ∧
    ((LateOut.start c [0#16]).run true (exLateOut ++ [.again, .deliver])).out.1.length = 3 ∧
    (((LateOut.start c [0#16]).run true exLateOut).c.next true []
      ((LateOut.start c [0#16]).run true exLateOut).kept.2).2 = .ok [2#16] :=
  ⟨_, rfl, rfl, rfl, rfl, rfl, rfl⟩

/-- The hypotheses of the theorems are met. -/
example (c : Coupler) (h : Coupler.new exRelay = .ok c) :=
  C130_values true exRelay c h 0 (exRelay_disjoint 0) .UR20_4RO_CO_255 _ 0x8000#16 _
    ⟨rfl, rfl, rfl, rfl⟩ (by decide) (by decide) (.inl (by decide)) 0 (by decide) [0#16] exLateOut
    (by
      intro e he
      simp only [exLateOut, List.mem_cons, List.not_mem_nil, or_false] at he
      rcases he with rfl | rfl | rfl | rfl | rfl | rfl | rfl <;> trivial)

/-- 4110/1024 mA, encoded as 5548, is set and its image late; two idle cycles follow, and the image of
the first of them is lost: the device has 5548 and then 5546. -/
example :
    let evs : List LateOutEv := [.call (.setOutput ⟨1, 0⟩ (.decimal32 (.fin (4110 / 1024)))), .cycle [],
      .cycle [], .cycle [], .lose 1, .deliver]
    let s := LateOut.start (initial exAoCfg exAoModules) [3#16, 45#16, 90#16, 0xABCD#16, 0#16]
    (s.run true evs).out.2 = [3#16, 5548#16, 90#16, 0xABCD#16, 0#16] ∧
    (s.run true (evs ++ [.deliver])).out.2 = [3#16, 5546#16, 90#16, 0xABCD#16, 0#16] := by
  decide +kernel

/-- A cycle with a missing image fails and nothing is lost. -/
example : ∀ e ∈ .failing [] [] :: exLateOut, LateOut.Admissible true exRelay e := by
  intro e he
  rcases List.mem_cons.1 he with rfl | he
  · exact ⟨exRelay_undecodable, fun h => by cases h⟩
  · simp only [exLateOut, List.mem_cons, List.not_mem_nil, or_false] at he
    rcases he with rfl | rfl | rfl | rfl | rfl | rfl | rfl <;> trivial

/-- The application restarts before the image in which relay 1 is off arrives: both relays stay on, and
the new coupler goes on from there. -/
example : ∃ c, Coupler.new exRelay = .ok c ∧
    let s := (LateOut.start c [0#16]).run true (exLateOut ++ [.again, .restart c, .deliver])
    s.out.2 = [3#16] ∧ s.calls.length = 2 ∧
    (s.run true [.call (.setOutput ⟨0, 3⟩ (.bit true)), .cycle [], .deliver]).out.2 = [11#16] :=
  ⟨_, rfl, rfl, rfl, rfl⟩

end Ur20
