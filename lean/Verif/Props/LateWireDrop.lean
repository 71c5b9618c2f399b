import Verif.Spec.LateWireDrop
import Verif.Props.LateShown

/-!
# C159: an output wired to an input, with late and lost images, failing cycles and restarts
-/

namespace Ur20

open Spec Com Coupler
open scoped List

namespace Spec.LateWire

/-- The first device had this image at some time. -/
def DropHad (oc : Bool) (cfg : CouplerConfig) (c0 : Coupler) (img : List Word) (x : List COp × List Word) :
    Prop := ∃ evs, (∀ e ∈ evs, LateOut.Sound oc cfg e) ∧ x ∈ ((LateOut.start c0 img).drun oc cfg evs).images

/-- What holds after every schedule. -/
structure DropInv (oc : Bool) (wired : List Word → List Word → Bool) (cfg cfg' : CouplerConfig)
    (c0 : Coupler) (img : List Word) (s : LateWire) : Prop where
  a : ∃ evs, (∀ e ∈ evs, LateOut.Sound oc cfg e) ∧ s.a = (LateOut.start c0 img).drun oc cfg evs
  d : ReachableFrom oc cfg' s.d
  had : ∀ x ∈ s.images, wired x.out x.pi = true ∧ DropHad oc cfg c0 img (x.calls, x.out)
  order : s.images.Pairwise (fun x y => x.calls <+: y.calls)
  below : ∀ x ∈ s.images, x.calls <+: s.a.out.1
  shown : ∀ x, s.seen = some x → ShowsInputs cfg' s.d.inputs x.pi

/-- Nothing on the way or in use is older than these calls. -/
def Above (l : List COp) (s : LateWire) : Prop := l <+: s.a.out.1 ∧ ∀ y ∈ s.images, l <+: y.calls

section

variable {oc : Bool} {wired : List Word → List Word → Bool} {cfg cfg' : CouplerConfig} {c0 : Coupler}
  {img : List Word}

/-- A step of the first application. -/
theorem DropInv.first {s : LateWire} (h : DropInv oc wired cfg cfg' c0 img s) (e : LateOutEv)
    (hu : LateOut.Sound oc cfg e) :
    DropInv oc wired cfg cfg' c0 img { s with a := s.a.dstep oc cfg e } ∧
      ∀ l, Above l s → Above l { s with a := s.a.dstep oc cfg e } := by
  obtain ⟨evs, hevs, ha⟩ := h.a
  have hou : ∀ x ∈ evs ++ [e], LateOut.Sound oc cfg x := by
    intro x hm
    rcases List.mem_append.1 hm with hm | hm
    · exact hevs x hm
    · rw [List.mem_singleton.1 hm]
      exact hu
  have hrun : s.a.dstep oc cfg e = (LateOut.start c0 img).drun oc cfg (evs ++ [e]) := by
    rw [ha]
    simp only [LateOut.drun, List.foldl_append, List.foldl_cons, List.foldl_nil]
  have hle : s.a.out.1 <+: (s.a.dstep oc cfg e).out.1 := by
    rw [ha]
    exact (((LateOut.ordered_start c0 img).drun (oc := oc) (cfg := cfg) evs).1.dstep e).2
  exact ⟨⟨⟨_, hou, hrun⟩, h.d, h.had, h.order, fun x hx => (h.below x hx).trans hle, h.shown⟩,
    fun l hl => ⟨hl.1.trans hle, hl.2⟩⟩

/-- A step after which fewer images are on the way or in use. -/
theorem DropInv.fewer {s t : LateWire} (h : DropInv oc wired cfg cfg' c0 img s) (ha : t.a = s.a)
    (hd : ReachableFrom oc cfg' t.d) (hm : ∀ y ∈ t.images, y ∈ s.images)
    (ho : t.images.Pairwise (fun x y => x.calls <+: y.calls))
    (hs : ∀ x, t.seen = some x → ShowsInputs cfg' t.d.inputs x.pi) :
    DropInv oc wired cfg cfg' c0 img t ∧ ∀ l, Above l s → Above l t :=
  ⟨⟨by rw [ha]; exact h.a, hd, fun y hy => h.had y (hm y hy), ho,
    fun y hy => by rw [ha]; exact h.below y (hm y hy), hs⟩,
    fun l hl => ⟨by rw [ha]; exact hl.1, fun y hy => hl.2 y (hm y hy)⟩⟩

/-- The second application uses the image it has. -/
theorem images_use {s : LateWire} {x : Sampled} (hx : s.inp = some x) (d' : Coupler)
    (ho : s.images.Pairwise (fun x y => x.calls <+: y.calls)) :
    (∀ y ∈ images { s with d := d', seen := some x }, y ∈ s.images) ∧
      (images { s with d := d', seen := some x }).Pairwise (fun x y => x.calls <+: y.calls) := by
  have hord : (x :: s.ins).Pairwise (fun x y => x.calls <+: y.calls) := by
    refine ho.sublist ?_
    unfold images
    rw [hx, List.append_assoc]
    exact List.sublist_append_right _ _
  constructor
  · intro y hy
    unfold images at hy ⊢
    simp only [hx, Option.toList_some, List.append_assoc, List.singleton_append, List.mem_cons,
      List.mem_append] at hy ⊢
    tauto
  · unfold images
    simp only [hx, Option.toList_some, List.cons_append, List.nil_append]
    rw [List.pairwise_cons]
    refine ⟨fun y hy => ?_, hord⟩
    rcases List.mem_cons.1 hy with rfl | hy
    · exact List.prefix_refl _
    · exact (List.pairwise_cons.1 hord).1 y hy

theorem DropInv.step {s : LateWire} (h : DropInv oc wired cfg cfg' c0 img s) {d0 : Coupler}
    (hd : Coupler.new cfg' = .ok d0) (e : WireDropEv) (hu : LateWire.Sound oc cfg e) :
    DropInv oc wired cfg cfg' c0 img (s.dstep oc cfg cfg' wired d0 e) ∧
      ∀ l, Above l s → Above l (s.dstep oc cfg cfg' wired d0 e) := by
  have stay : DropInv oc wired cfg cfg' c0 img s ∧ ∀ l, Above l s → Above l s := ⟨h, fun _ hl => hl⟩
  cases e with
  | restart =>
    exact h.fewer rfl ⟨d0, [], hd, rfl⟩ (fun y hy => by cases hy) List.Pairwise.nil
      (fun _ hx => by cases hx)
  | ev e =>
  cases e with
  | first e =>
    cases e with
    | failing pi po => exact h.first (.failing pi po) hu
    | restart c => exact h.first (.restart c) hu
    | call op => exact h.first (.call op) trivial
    | cycle pi => exact h.first (.cycle pi) trivial
    | again => exact h.first .again trivial
    | deliver => exact h.first .deliver trivial
    | lose n => exact h.first (.lose n) trivial
  | call op =>
    have key : ∀ op : COp, (∀ pi po, op ≠ .next pi po) →
        DropInv oc wired cfg cfg' c0 img { s with d := op.apply oc s.d } ∧
          ∀ l, Above l s → Above l { s with d := op.apply oc s.d } := fun op hop =>
      h.fewer rfl (reachable_run h.d [op]) (fun y hy => hy) h.order fun x hx => by
        rw [show LateWire.d { s with d := op.apply oc s.d } = op.apply oc s.d from rfl,
          call_inputs oc s.d op hop]
        exact h.shown x hx
    cases op with
    | next pi po => exact stay
    | setOutput a v => exact key (.setOutput a v) (by simp)
    | read n len => exact key (.read n len) (by simp)
    | write n buf => exact key (.write n buf) (by simp)
  | sample pi =>
    simp only [LateWire.dstep, LateWire.step]
    split
    · rename_i hw
      obtain ⟨evs, hevs, ha⟩ := h.a
      have hmem : ∀ x ∈ images { s with ins := s.ins ++ [⟨s.a.out.1, s.a.out.2, pi⟩] },
          x ∈ s.images ∨ x = ⟨s.a.out.1, s.a.out.2, pi⟩ := by
        intro x hx
        unfold images at hx
        simp only [← List.append_assoc] at hx
        rcases List.mem_append.1 hx with hx | hx
        · exact .inl hx
        · exact .inr (List.mem_singleton.1 hx)
      refine ⟨⟨h.a, h.d, fun x hx => ?_, ?_, fun x hx => ?_, h.shown⟩, fun l hl => ⟨hl.1, fun x hx => ?_⟩⟩
      · rcases hmem x hx with hx | rfl
        · exact h.had x hx
        · exact ⟨hw, evs, hevs, by rw [← ha]; simp [LateOut.images]⟩
      · unfold images
        simp only [← List.append_assoc]
        rw [List.pairwise_append]
        refine ⟨h.order, List.pairwise_singleton _ _, fun x hx y hy => ?_⟩
        rcases List.mem_singleton.1 hy with rfl
        exact h.below x hx
      · rcases hmem x hx with hx | rfl
        · exact h.below x hx
        · exact List.prefix_refl _
      · rcases hmem x hx with hx | rfl
        · exact hl.2 x hx
        · exact hl.1
    · exact stay
  | arrive =>
    simp only [LateWire.dstep, LateWire.step]
    split
    · rename_i x ins hi
      have hsub : (LateWire.images { s with inp := some x, ins := ins }) <+ s.images := by
        unfold images
        simp only [hi, Option.toList_some, List.append_assoc, List.singleton_append]
        exact (List.Sublist.refl _).append (List.sublist_append_right _ _)
      exact h.fewer rfl h.d (fun y hy => hsub.subset hy) (h.order.sublist hsub) h.shown
    · exact stay
  | lose n =>
    have hsub : (LateWire.images { s with ins := s.ins.eraseIdx n }) <+ s.images :=
      (List.Sublist.refl _).append (List.eraseIdx_sublist _ _)
    exact h.fewer rfl h.d (fun y hy => hsub.subset hy) (h.order.sublist hsub) h.shown
  | cycle po =>
    simp only [LateWire.dstep]
    split
    · rename_i x hx
      obtain ⟨u1, u2⟩ := fun d' => images_use hx d' h.order |>.1, fun d' => images_use hx d' h.order |>.2
      have hr := reachable_run h.d [.next x.pi po]
      simp only [runC, List.foldl_cons, List.foldl_nil, COp.apply] at hr
      split
      · rename_i d' img' hn
        rw [hn] at hr
        refine h.fewer rfl hr (u1 d') (u2 d') fun y hy => ?_
        cases hy
        exact C70_inputs oc cfg' s.d h.d x.pi po img' d' hn
      · rename_i d' er hn
        rw [hn] at hr
        by_cases hp : InputsPresent cfg' x.pi
        · rw [if_pos hp]
          refine h.fewer rfl hr (u1 d') (u2 d') fun y hy => ?_
          cases hy
          have := showsInputs_next h.d po hp
          rw [hn] at this
          exact this
        · rw [if_neg hp]
          refine h.fewer rfl hr (fun y hy => hy) h.order fun y hy => ?_
          have hdd : d' = s.d := by
            have hno : ∀ ins, processInputData oc (infos s.d) x.pi ≠ .ok ins :=
              fun ins hi => hp ((decode_inputs h.d x.pi).1 ⟨ins, hi⟩)
            rcases next_cases oc s.d x.pi po with ⟨e, -, g⟩ | ⟨-, g⟩ | ⟨ins, _, g, -⟩ | ⟨ins, g, -⟩ |
              ⟨ins, _, g, -⟩ | ⟨ins, _, _, _, g, -⟩
            · rw [hn] at g; cases g; rfl
            · rw [hn] at g; cases g
            all_goals exact absurd g (hno ins)
          rw [show LateWire.d { s with d := d', seen := s.seen } = s.d from hdd]
          exact h.shown y hy
      · exact stay
    · exact stay

theorem DropInv.both {s : LateWire} (h : DropInv oc wired cfg cfg' c0 img s) {d0 : Coupler}
    (hd : Coupler.new cfg' = .ok d0) (evs : List WireDropEv) (hu : ∀ e ∈ evs, LateWire.Sound oc cfg e) :
    DropInv oc wired cfg cfg' c0 img (s.drun oc cfg cfg' wired d0 evs) ∧
      ∀ l, Above l s → Above l (s.drun oc cfg cfg' wired d0 evs) := by
  induction evs generalizing s with
  | nil => exact ⟨h, fun _ hl => hl⟩
  | cons e evs ih =>
    obtain ⟨h1, h2⟩ := h.step hd e (hu e List.mem_cons_self)
    obtain ⟨h3, h4⟩ := ih h1 fun e he => hu e (List.mem_cons_of_mem _ he)
    exact ⟨h3, fun l hl => h4 l (h2 l hl)⟩

theorem DropInv.run {s : LateWire} (h : DropInv oc wired cfg cfg' c0 img s) {d0 : Coupler}
    (hd : Coupler.new cfg' = .ok d0) (evs : List WireDropEv) (hu : ∀ e ∈ evs, LateWire.Sound oc cfg e) :
    DropInv oc wired cfg cfg' c0 img (s.drun oc cfg cfg' wired d0 evs) := (h.both hd evs hu).1

theorem DropInv.initial {d0 : Coupler} (h : Coupler.new cfg' = .ok d0) :
    DropInv oc wired cfg cfg' c0 img (start c0 d0 img) where
  a := ⟨[], fun _ h => (by cases h), rfl⟩
  d := ⟨d0, [], h, rfl⟩
  had := fun _ h => by cases h
  order := List.Pairwise.nil
  below := fun _ h => by cases h
  shown := fun _ h => by cases h

end

end Spec.LateWire

open Spec.LateWire

/-- C159, order: the image the second application has used last shows the first device with the values of
some of the calls that count, and in the course of a schedule no image with older ones is ever used again,
not even after a restart. -/
theorem C159_order (oc : Bool) (wired : List Word → List Word → Bool) (cfg cfg' : CouplerConfig)
    (c0 d0 : Coupler) (h0 : Coupler.new cfg' = .ok d0) (img : List Word) (evs evs' : List WireDropEv)
    (hu : ∀ e ∈ evs ++ evs', LateWire.Sound oc cfg e) (x : Sampled) :
    let s := (LateWire.start c0 d0 img).drun oc cfg cfg' wired d0 evs
    s.seen = some x → x.calls <+: s.a.calls ∧
      ∀ y, (s.drun oc cfg cfg' wired d0 evs').seen = some y → x.calls <+: y.calls := by
  intro s hx
  have hi := (DropInv.initial (oc := oc) (wired := wired) (cfg := cfg) (c0 := c0) (img := img) h0).run h0
    evs fun e h => hu e (List.mem_append_left _ h)
  have hm : x ∈ s.images := by unfold LateWire.images; rw [hx]; simp
  have hab : Above x.calls s := by
    refine ⟨hi.below x hm, fun y hy => ?_⟩
    have ho := hi.order
    unfold LateWire.images at ho hy
    rw [show LateWire.seen _ = some x from hx] at ho
    rw [hx] at hy
    simp only [Option.toList_some, List.cons_append, List.nil_append] at ho hy
    rcases List.mem_cons.1 hy with rfl | hy
    · exact List.prefix_refl _
    · exact (List.pairwise_cons.1 ho).1 y hy
  refine ⟨?_, fun y hy => ((hi.both h0 evs' fun e h => hu e (List.mem_append_right _ h)).2 _ hab).2 y
    (by unfold LateWire.images; rw [hy]; simp)⟩
  obtain ⟨ea, -, ha⟩ := hi.a
  have o1 := ((LateOut.ordered_start c0 img).drun (oc := oc) (cfg := cfg) ea).1
  rw [← ha] at o1
  exact (hi.below x hm).trans ((o1.le_kept (by simp [LateOut.images])).trans o1.2)

/-- C159: a digital output or relay wired to a digital input. What `inputs` shows is the bit of the last
`set_output` of the calls that the image stands for, and what was on at the start if there was none. -/
theorem C159_digital (oc : Bool) (cfg cfg' : CouplerConfig) (c0 d0 : Coupler)
    (hc : Coupler.new cfg = .ok c0) (hd : Coupler.new cfg' = .ok d0) (j : Nat) (hdis : OutputsKept cfg j)
    (t : ModuleType) (par : List Word) (o i : Word) (hcfg : ConfiguredAt cfg j t par o i)
    (hout : DigitalOutput t) (hno : o ≠ noOffset) (hal : o.toNat % 16 = 0 ∨ outputBytes t par = 1)
    (ch : Nat) (hch : ch < outputChannels t)
    (k : Nat) (t' : ModuleType) (par' : List Word) (o' i' : Word)
    (hcfg' : ConfiguredAt cfg' k t' par' o' i') (hin : DigitalInput t') (hno' : i' ≠ noOffset)
    (ch' : Nat) (hch' : ch' < inputChannels t') (img : List Word) (evs : List WireDropEv)
    (hu : ∀ e ∈ evs, LateWire.Sound oc cfg e) (x : Sampled) :
    let s := (LateWire.start c0 d0 img).drun oc cfg cfg'
      (bitWire (outBit o + ch) (i'.toNat + ch')) d0 evs
    s.seen = some x → ∃ vs, s.d.inputs[k]? = some vs ∧
      (∀ b, lastSet ⟨j, ch⟩ x.calls = some (.bit b) → vs[ch']? = some (.bit b)) ∧
      (lastSet ⟨j, ch⟩ x.calls = none → ∀ b, bitAt img (outBit o + ch) = some b →
        vs[ch']? = some (.bit b)) := by
  intro s hx
  have hi := (DropInv.initial (oc := oc) (wired := bitWire (outBit o + ch) (i'.toNat + ch'))
    (cfg := cfg) (c0 := c0) (img := img) hd).run hd evs hu
  obtain ⟨hw, ea, hea, hmem⟩ := hi.had x (by unfold LateWire.images; rw [hx]; simp)
  have hser : t ≠ .UR20_1COM_232_485_422 := by
    rcases hout with rfl | rfl | rfl | rfl | rfl <;> decide
  have hval := LateOut.drun_values oc cfg c0 hc img ea hea j hdis t par o i hcfg hser hno hal ch hch _ hmem
  have hset : ∀ (im : List Word) (b : Bool), Settled t par im (outBit o) ch (.bit b) ↔
      bitAt im (outBit o + ch) = some b := by
    intro im b
    rcases hout with rfl | rfl | rfl | rfl | rfl <;>
      simp [Settled]
  have hal' : i'.toNat % 16 = 0 ∨ inputBytes t' par' = 1 := by
    rcases hin with rfl | rfl <;> exact .inr rfl
  obtain ⟨vs, e1, -, e2⟩ := (hi.shown x hx k t' par' o' i' hcfg'
    (by rcases hin with rfl | rfl <;> decide)).2 hno' hal'
  obtain ⟨v, e3, e4⟩ := e2 ch' hch'
  have hv : ∃ b', bitAt x.pi (i'.toNat + ch') = some b' ∧ v = .bit b' := by
    rcases hin with rfl | rfl <;> exact e4
  obtain ⟨b', h1, rfl⟩ := hv
  have hw' : bitAt x.pi (i'.toNat + ch') = bitAt x.out (outBit o + ch) := by
    simpa [bitWire] using hw
  have hfin : ∀ b, bitAt x.out (outBit o + ch) = some b → vs[ch']? = some (.bit b) := by
    intro b hb
    rw [← hw', h1] at hb
    cases hb
    exact e3
  refine ⟨vs, e1, fun b hb => hfin b ((hset _ _).1 (hval.1 _ hb)), fun hb b hbi =>
    hfin b ((hset _ _).1 (hval.2 hb _ ((hset _ _).2 hbi)))⟩

/-- C159: an analog output wired to an analog input, with the bound of C132. -/
theorem C159_analog (oc : Bool) (wired : List Word → List Word → Bool) (cfg cfg' : CouplerConfig)
    (c0 d0 : Coupler) (hc : Coupler.new cfg = .ok c0) (hd : Coupler.new cfg' = .ok d0)
    (j : Nat) (hdis : OutputsKept cfg j)
    (t : ModuleType) (par : List Word) (o i : Word) (hcfg : ConfiguredAt cfg j t par o i)
    (hno : o ≠ noOffset) (hal : o.toNat % 16 = 0) (ch : Nat) (hch : ch < 4)
    (r : AnalogUIRange) (f : DataFormat) (hf : OutputFormat t par ch r f)
    (s : ℚ × ℚ) (hs : uiScale r = some s)
    (k : Nat) (t' : ModuleType) (par' : List Word) (o' i' : Word)
    (hcfg' : ConfiguredAt cfg' k t' par' o' i') (hno' : i' ≠ noOffset) (hal' : i'.toNat % 16 = 0)
    (ch' : Nat) (hch' : ch' < inputChannels t')
    (r' : AnalogUIRange) (f' : DataFormat) (hf' : InputFormat t' par' ch' r' f')
    (s' : ℚ × ℚ) (hs' : uiScale r' = some s') (δ : ℚ)
    (wire : ∀ out pi, wired out pi = true → ∀ w w', out[outBit o / 16 + ch]? = some w →
      pi[i'.toNat / 16 + ch']? = some w' → |physical s' f' w'.toInt - physical s f w.toInt| ≤ δ)
    (img : List Word) (w0 : Word) (hw0 : img[outBit o / 16 + ch]? = some w0) (evs : List WireDropEv)
    (hu : ∀ e ∈ evs, LateWire.Sound oc cfg e) (x : Sampled) (q : ℚ) (hq : Single q)
    (hrange : |exactRaw s f q| ≤ 32767) (hl : lastSet ⟨j, ch⟩ x.calls = some (.decimal32 (.fin q))) :
    let st := (LateWire.start c0 d0 img).drun oc cfg cfg' wired d0 evs
    st.seen = some x → ∃ vs y, st.d.inputs[k]? = some vs ∧ vs[ch']? = some (.decimal32 (.fin y)) ∧
      |y - q| ≤ δ + (17 / 16 + maxDrift r) * rawUnit s f + rawUnit s' f' / 128 := by
  intro st hx
  have hi := (DropInv.initial (oc := oc) (wired := wired) (cfg := cfg) (c0 := c0) (img := img) hd).run hd
    evs hu
  obtain ⟨hw, ea, hea, hmem⟩ := hi.had x (by unfold LateWire.images; rw [hx]; simp)
  have hen : r ≠ .Disabled := by rintro rfl; cases hs
  have hser' : t' ≠ .UR20_1COM_232_485_422 := by rintro rfl; exact hf'
  have hval := ((LateOut.drun_analog oc cfg c0 hc img ea hea j hdis t par o i hcfg hno hal ch hch r f hf w0
    hw0 _ hmem).bounds hen).1
  obtain ⟨w, e, w1, he, w2⟩ := hval _ hl
  have he' : EncodedAs (r, f) (.fin q) e := by
    rcases he with ⟨x', hx', he⟩ | ⟨h, -⟩
    · cases hx'; exact he
    · cases h
  obtain ⟨vs, e1, -, e2⟩ := (hi.shown x hx k t' par' o' i' hcfg' hser').2 hno' (.inl hal')
  obtain ⟨v, e3, e4⟩ := e2 ch' hch'
  obtain ⟨w', g1, g2⟩ := shown_reading e4 hf'
  obtain ⟨y, rfl, g3⟩ := reading_close hs' g2
  refine ⟨vs, y, e1, e3, ?_⟩
  have a2 := wire x.out x.pi hw w w' w1 g1
  have hs1 : 0 < s.2 - s.1 := by
    clear hen hval he' w2 hf
    cases r <;> simp only [uiScale] at hs <;> cases hs <;> norm_num
  have hfs : 0 < fullScale f := by cases f <;> norm_num [fullScale]
  have hst0 : 0 < rawUnit s f := div_pos hs1 hfs
  have a1 : |physical s f w.toInt - q| ≤ (17 / 16 + maxDrift r) * rawUnit s f := by
    simp only [EncodedAs, hs] at he'
    obtain ⟨-, -, he'⟩ := he'.2.2.2 q rfl hq
    obtain ⟨h1, -⟩ := he' (by linarith [(abs_le.1 hrange).1]) (by linarith [(abs_le.1 hrange).2])
    have e0 : physical s f w.toInt - q = ((w.toInt : ℚ) - exactRaw s f q) * rawUnit s f := by
      simp only [physical, exactRaw, rawUnit]
      have := hfs.ne'
      have := hs1.ne'
      field_simp
      ring
    rw [e0, abs_mul, abs_of_pos hst0]
    refine mul_le_mul_of_nonneg_right ?_ hst0.le
    have w3 : |(w.toInt : ℚ) - e| ≤ maxDrift r := by exact_mod_cast w2
    rw [abs_lt] at h1
    rw [abs_le] at w3 ⊢
    constructor <;> linarith
  rw [abs_le] at a1 a2 g3 ⊢
  constructor <;> linarith

/-- Steps without a failing cycle and without a restart are those of `Spec/LateWire.lean`, up to the last
cycle of the second application. -/
theorem lateWire_plain (oc : Bool) (cfg cfg' : CouplerConfig) (wired : List Word → List Word → Bool)
    (d : Coupler) (evs : List LateWireEv)
    (h : ∀ e ∈ evs, (∀ pi po, e ≠ .first (.failing pi po)) ∧ ∀ po, e ≠ .cycle po) (s : LateWire) :
    s.drun oc cfg cfg' wired d (evs.map .ev) = s.run oc wired evs := by
  induction evs generalizing s with
  | nil => rfl
  | cons e evs ih =>
    have h1 : s.dstep oc cfg cfg' wired d (.ev e) = s.step oc wired e := by
      obtain ⟨h1, h2⟩ := h e List.mem_cons_self
      cases e with
      | first e =>
        cases e with
        | failing pi po => exact absurd rfl (h1 pi po)
        | _ => rfl
      | cycle po => exact absurd rfl (h2 po)
      | _ => rfl
    change (s.dstep oc cfg cfg' wired d (.ev e)).drun oc cfg cfg' wired d (evs.map .ev) =
      (s.step oc wired e).run oc wired evs
    rw [h1, ih fun e he => h e (List.mem_cons_of_mem _ he)]

/-- C159, arrival: whatever was late or lost and whatever failed before, if a cycle of the first application
succeeds, its image arrives, the second device sends an image of its inputs, this image arrives and a cycle
of the second application succeeds, or fails although its image of the inputs can be decoded, then `inputs`
shows the effect of all calls that count. -/
theorem C159_arrives (oc : Bool) (wired : List Word → List Word → Bool) (cfg cfg' : CouplerConfig)
    (c0 d0 : Coupler) (img : List Word) (evs : List WireDropEv) (pi new : List Word) :
    let s := (LateWire.start c0 d0 img).drun oc cfg cfg' wired d0 evs
    (s.a.c.next oc pi s.a.kept.2).2 = .ok new →
    ∀ pi', wired new pi' = true → ∀ po, ((∃ img', (s.d.next oc pi' po).2 = .ok img') ∨
      (InputsPresent cfg' pi' ∧ ∃ e, (s.d.next oc pi' po).2 = .err e)) →
    (s.drun oc cfg cfg' wired d0
      (((.cycle pi :: List.replicate (s.a.outs.length + 1) .deliver).map (.ev ∘ .first)) ++
        .ev (.sample pi') :: List.replicate (s.ins.length + 1) (.ev .arrive) ++ [.ev (.cycle po)])).seen =
      some ⟨s.a.calls, new, pi'⟩ := by
  intro s hn pi' hw po hn'
  obtain ⟨h1, h2⟩ := lateWire_round oc wired s pi new hn pi' hw
  have e := lateWire_plain oc cfg cfg' wired d0 ((.cycle pi :: List.replicate (s.a.outs.length + 1)
    .deliver).map .first ++ .sample pi' :: List.replicate (s.ins.length + 1) .arrive) (by
      intro e he
      simp only [List.map_cons, List.map_replicate, List.cons_append, List.mem_cons, List.mem_append,
        List.mem_replicate] at he
      rcases he with rfl | ⟨-, rfl⟩ | rfl | ⟨-, rfl⟩ <;> simp) s
  rw [LateWire.drun, List.foldl_append]
  have e2 : (((LateOutEv.cycle pi :: List.replicate (s.a.outs.length + 1) LateOutEv.deliver).map
      (WireDropEv.ev ∘ LateWireEv.first)) ++
        .ev (.sample pi') :: List.replicate (s.ins.length + 1) (.ev .arrive)) =
      (((LateOutEv.cycle pi :: List.replicate (s.a.outs.length + 1) LateOutEv.deliver).map
        LateWireEv.first) ++ LateWireEv.sample pi' :: List.replicate (s.ins.length + 1) .arrive).map
          WireDropEv.ev := by
    simp
  rw [e2]
  change (LateWire.dstep oc cfg cfg' wired d0 (LateWire.drun oc cfg cfg' wired d0 s _)
    (.ev (.cycle po))).seen = _
  rw [e]
  simp only [LateWire.dstep, h1, h2]
  rcases hx : s.d.next oc pi' po with ⟨d', r⟩
  rw [hx] at hn'
  rcases hn' with ⟨img', rfl⟩ | ⟨hp, er, rfl⟩
  · rfl
  · exact if_pos hp

/-! ### Examples -/

/-- Relay 2 of `exRelay` is wired to input 3. It is switched on, and its image arrives. Then it is switched
off, but a value of the wrong kind is set on relay 1, so that the next cycle fails. The second application
gets the image of its inputs. -/
def exWireDrop : List WireDropEv :=
  [.ev (.first (.call (.setOutput ⟨0, 1⟩ (.bit true)))), .ev (.first (.cycle [])), .ev (.first .deliver),
    .ev (.first (.call (.setOutput ⟨0, 1⟩ (.bit false)))),
    .ev (.first (.call (.setOutput ⟨0, 0⟩ (.bytes [1#8])))), .ev (.first (.failing [] [2#16])),
    .ev (.first (.cycle [])), .ev (.first .deliver), .restart, .ev (.sample [4#16]), .ev .arrive,
    .ev (.cycle [])]

theorem exWireDrop_sound : ∀ e ∈ exWireDrop, LateWire.Sound true exRelay e := by
  intro e he
  simp only [exWireDrop, List.mem_cons, List.not_mem_nil, or_false] at he
  rcases he with rfl | rfl | rfl | rfl | rfl | rfl | rfl | rfl | rfl | rfl | rfl | rfl
  case inr.inr.inr.inr.inr.inl => exact fun _ h => by cases h
  all_goals trivial

theorem exRelay_decodable : Decodable exRelay [] [2#16] := by
  have one : ∀ {j t par o i}, ConfiguredAt exRelay j t par o i → j = 0 := by
    intro j t par o i h
    obtain ⟨hlt, -⟩ := List.getElem?_eq_some_iff.1 h.1
    simp only [exRelay, List.length_singleton] at hlt
    omega
  constructor
  · intro j t par o i h hi
    obtain rfl := one h
    obtain ⟨h1, h2, h3, h4⟩ := h
    cases h1; cases h2; cases h3; cases h4
    exact absurd rfl hi
  · intro j t par o i h ho
    obtain rfl := one h
    obtain ⟨h1, h2, h3, h4⟩ := h
    cases h1; cases h2; cases h3; cases h4
    exact ⟨by decide, by unfold HasRegisters; decide, fun h => by cases h⟩

def exRelayCoupler : Coupler :=
  match Coupler.new exRelay with
  | .ok c => c
  | _ => initial exRelay []

theorem exRelayCoupler_new : Coupler.new exRelay = .ok exRelayCoupler := rfl

def exDiCoupler : Coupler :=
  match Coupler.new exDiCfg with
  | .ok c => c
  | _ => initial exDiCfg []

theorem exDiCoupler_new : Coupler.new exDiCfg = .ok exDiCoupler := rfl

noncomputable def exWireDropRun (n : Nat) : LateWire :=
  (LateWire.start exRelayCoupler exDiCoupler [0#16]).drun true exRelay exDiCfg (bitWire 1 2) exDiCoupler
    (exWireDrop.take n)

/-- The failing cycle discards the call that switches the relay off. -/
theorem exWireDropRun_failed : exWireDropRun 6 = { exWireDropRun 5 with
    a := { (exWireDropRun 5).a with
      c := ((exWireDropRun 5).a.c.next true [] [2#16]).1
      calls := [.setOutput ⟨0, 1⟩ (.bit true)] } } := by
  have e : exWireDropRun 6 = (exWireDropRun 5).dstep true exRelay exDiCfg (bitWire 1 2) exDiCoupler
      (.ev (.first (.failing [] [2#16]))) := rfl
  have hn : ((exWireDropRun 5).a.c.next true [] [2#16]).2 = .err .channelValue := by decide +kernel
  have hk : (exWireDropRun 5).a.kept.1 = [.setOutput ⟨0, 1⟩ (.bit true)] := by rfl
  rw [e]
  simp only [LateWire.dstep, LateOut.step]
  rw [if_pos ⟨exRelay_decodable, _, hn⟩, hk]
  rcases hx : (exWireDropRun 5).a.c.next true [] [2#16] with ⟨c', x⟩
  rw [hx] at hn
  subst hn
  rfl

/-- So the second application still sees the relay on. -/
theorem exWireDropRun_seen :
    (exWireDropRun 12).seen = some ⟨[.setOutput ⟨0, 1⟩ (.bit true)], [2#16], [4#16]⟩ := by
  have e : exWireDropRun 12 = (exWireDropRun 6).drun true exRelay exDiCfg (bitWire 1 2) exDiCoupler
      (exWireDrop.drop 6) := rfl
  rw [e, exWireDropRun_failed]
  rfl

example : ∃ vs, (exWireDropRun 12).d.inputs[0]? = some vs ∧ vs[2]? = some (.bit true) := by
  obtain ⟨vs, h1, h2, -⟩ := C159_digital true exRelay exDiCfg exRelayCoupler exDiCoupler exRelayCoupler_new
    exDiCoupler_new 0 (exRelay_disjoint 0) .UR20_4RO_CO_255 _ 0x8000#16 _
    ⟨rfl, rfl, rfl, rfl⟩ (by unfold DigitalOutput; decide) (by decide) (.inl (by decide)) 1 (by decide)
    0 .UR20_4DI_P _ _ 0x0000#16 ⟨rfl, rfl, rfl, rfl⟩ (.inl rfl) (by decide) 2 (by decide) [0#16]
    exWireDrop exWireDrop_sound _ exWireDropRun_seen
  exact ⟨vs, h1, h2 true rfl⟩

example := C159_order true (bitWire 1 2) exRelay exDiCfg exRelayCoupler exDiCoupler exDiCoupler_new [0#16]
  exWireDrop [.restart] (fun e he => (List.mem_append.1 he).elim (exWireDrop_sound e) fun h => by
    rw [List.mem_singleton.1 h]; trivial) _ exWireDropRun_seen

/-- A round after the failing cycle. -/
theorem exWireDropRun_round :
    ((exWireDropRun 6).a.c.next true [] (exWireDropRun 6).a.kept.2).2 = .ok [2#16] ∧
    bitWire 1 2 [2#16] [4#16] = true ∧
    ∃ img, ((exWireDropRun 6).d.next true [4#16] []).2 = .ok img := by
  rw [exWireDropRun_failed]
  exact ⟨by decide +kernel, by decide +kernel, ⟨_, rfl⟩⟩

example := C159_arrives true (bitWire 1 2) exRelay exDiCfg exRelayCoupler exDiCoupler [0#16]
  (exWireDrop.take 6) [] [2#16] exWireDropRun_round.1 [4#16] exWireDropRun_round.2.1 []
  (.inl exWireDropRun_round.2.2)

/-- The schedule of `exLateAnalog`, after which the second application is restarted. -/
example (c d : Coupler) (h : Coupler.new exAo1Cfg = .ok c) (h' : Coupler.new exAiCfg = .ok d)
    (x : Sampled) :=
  C159_analog true exAnalogWire exAo1Cfg exAiCfg c d h h' 0 (exAo1_disjoint 0) .UR20_4AO_UI_16
    _ 0x8000#16 _ ⟨rfl, rfl, rfl, rfl⟩ (by decide) (by decide) 0 (by decide) .mA0To20 .S7
    ⟨⟨_, rfl, rfl⟩, ⟨_, rfl, rfl⟩⟩ _ rfl 0 .UR20_4AI_UI_16 _ _ 0x0000#16 ⟨rfl, rfl, rfl, rfl⟩
    (by decide) (by decide) 1 (by decide) .mA0To20 .S7 ⟨⟨_, rfl, rfl⟩, ⟨_, rfl, rfl⟩⟩ _ rfl 0
    (by
      intro out pi hw w w' h1 h2
      have e : pi[1]? = out[0]? := by simpa [exAnalogWire] using hw
      have e1 : out[0]? = some w := h1
      have e2 : pi[1]? = some w' := h2
      rw [e, e1] at e2
      cases e2
      simp)
    [45#16, 0#16, 0#16, 0#16] 45#16 rfl (.restart :: exLateAnalog.map .ev) (by
      intro e he
      simp only [exLateAnalog, List.map_cons, List.map_nil, List.mem_cons, List.not_mem_nil, or_false] at he
      rcases he with rfl | rfl | rfl | rfl | rfl | rfl | rfl | rfl | rfl | rfl | rfl <;> trivial) x
    (4110 / 1024) ⟨4110, -10, by norm_num, by norm_num, by norm_num, by norm_num⟩
    (by norm_num [exactRaw, fullScale])

/-- The hypothesis of the last example that is left: the image is used. -/
example : ∃ c d, Coupler.new exAo1Cfg = .ok c ∧ Coupler.new exAiCfg = .ok d ∧
    ((LateWire.start c d [45#16, 0#16, 0#16, 0#16]).drun true exAo1Cfg exAiCfg exAnalogWire d
      (.restart :: exLateAnalog.map .ev)).seen.map (·.calls.length) = some 1 :=
  ⟨_, _, rfl, rfl, by decide +kernel⟩

end Ur20
