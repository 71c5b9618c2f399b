import Verif.Spec.LateWire
import Verif.Props.LateOutputs
import Verif.Props.Wiring

/-! # An output wired to an input, with late and lost images: C132 -/

namespace Ur20

open Spec Com Coupler
open scoped List

theorem call_inputs (oc : Bool) (c : Coupler) (op : COp) (h : ∀ pi po, op ≠ .next pi po) :
    (op.apply oc c).inputs = c.inputs := by
  cases op with
  | next pi po => exact (h pi po rfl).elim
  | setOutput a v =>
    simp only [COp.apply, setOutput]
    split <;> rfl
  | read n len =>
    simp only [COp.apply]
    split
    · rename_i r hr
      simp only [Coupler.read] at hr
      split at hr
      · rename_i p hp
        cases hq : p.read len with
        | ok q => rw [hq] at hr; cases hr; rfl
        | err e => rw [hq] at hr; cases hr
        | panic => rw [hq] at hr; cases hr
      · cases hr; rfl
    · rfl
  | write n buf =>
    simp only [COp.apply, writeBytes]
    split <;> rfl

namespace Spec.LateWire

/-- The images of the inputs in the order in which they were sent. -/
def images (s : LateWire) : List Sampled := s.seen.toList ++ s.inp.toList ++ s.ins

/-- The first device had this image at some time. -/
def Had (oc : Bool) (cfg : CouplerConfig) (c0 : Coupler) (img : List Word) (x : List COp × List Word) :
    Prop := ∃ evs, (∀ e ∈ evs, LateOut.Admissible oc cfg e) ∧ ((LateOut.start c0 img).run oc evs).out = x

/-- What holds after every schedule. -/
structure Inv (oc : Bool) (wired : List Word → List Word → Bool) (cfg cfg' : CouplerConfig)
    (c0 : Coupler) (img : List Word) (s : LateWire) : Prop where
  a : ∃ evs, (∀ e ∈ evs, LateOut.Admissible oc cfg e) ∧ s.a = (LateOut.start c0 img).run oc evs
  d : ReachableFrom oc cfg' s.d
  had : ∀ x ∈ s.images, wired x.out x.pi = true ∧ Had oc cfg c0 img (x.calls, x.out)
  order : s.images.Pairwise (fun x y => x.calls <+: y.calls)
  below : ∀ x ∈ s.images, x.calls <+: s.a.out.1
  shown : ∀ x, s.seen = some x → ∃ d0 po d1 img', ReachableFrom oc cfg' d0 ∧
    d0.next oc x.pi po = (d1, .ok img') ∧ s.d.inputs = d1.inputs

/-- What the second application sees never goes back. -/
def SeenLe (s t : LateWire) : Prop :=
  ∀ x, s.seen = some x → ∃ y, t.seen = some y ∧ x.calls <+: y.calls

theorem seenLe_of_eq {s t : LateWire} (h : t.seen = s.seen) : s.SeenLe t :=
  fun x hx => ⟨x, h.trans hx, List.prefix_refl _⟩

section

variable {oc : Bool} {wired : List Word → List Word → Bool} {cfg cfg' : CouplerConfig} {c0 : Coupler}
  {img : List Word}

theorem Inv.step {s : LateWire} (h : Inv oc wired cfg cfg' c0 img s) (e : LateWireEv)
    (hu : LateWire.Admissible oc cfg e) :
    Inv oc wired cfg cfg' c0 img (s.step oc wired e) ∧ s.SeenLe (s.step oc wired e) := by
  have stay : Inv oc wired cfg cfg' c0 img s ∧ s.SeenLe s := ⟨h, seenLe_of_eq rfl⟩
  obtain ⟨evs, hevs, ha⟩ := h.a
  cases e with
  | first e =>
    have hou : ∀ x ∈ evs ++ [e], LateOut.Admissible oc cfg x := by
      intro x hm
      rcases List.mem_append.1 hm with hm | hm
      · exact hevs x hm
      · rw [List.mem_singleton.1 hm]
        exact hu
    have hrun : s.a.step oc e = (LateOut.start c0 img).run oc (evs ++ [e]) := by
      rw [ha]
      simp only [LateOut.run, List.foldl_append, List.foldl_cons, List.foldl_nil]
    have hle : s.a.out.1 <+: (s.a.step oc e).out.1 := by
      rw [ha]
      exact (((LateOut.ordered_start c0 img).run (oc := oc) evs).1.step (oc := oc) e).2
    exact ⟨⟨⟨_, hou, hrun⟩, h.d, h.had, h.order, fun x hx => (h.below x hx).trans hle, h.shown⟩,
      seenLe_of_eq rfl⟩
  | call op =>
    have key : ∀ op : COp, (∀ pi po, op ≠ .next pi po) →
        Inv oc wired cfg cfg' c0 img { s with d := op.apply oc s.d } := fun op hop =>
      ⟨h.a, reachable_run h.d [op], h.had, h.order, h.below, fun x hx => by
        rw [show LateWire.d { s with d := op.apply oc s.d } = op.apply oc s.d from rfl,
          call_inputs oc s.d op hop]
        exact h.shown x hx⟩
    cases op with
    | next pi po => exact stay
    | setOutput _ _ => exact ⟨key _ (by simp), seenLe_of_eq rfl⟩
    | read _ _ => exact ⟨key _ (by simp), seenLe_of_eq rfl⟩
    | write _ _ => exact ⟨key _ (by simp), seenLe_of_eq rfl⟩
  | sample pi =>
    simp only [LateWire.step]
    split
    · rename_i hw
      refine ⟨⟨h.a, h.d, ?_, ?_, ?_, h.shown⟩, seenLe_of_eq rfl⟩
      · intro x hx
        unfold images at hx
        simp only [← List.append_assoc] at hx
        rcases List.mem_append.1 hx with hx | hx
        · exact h.had x hx
        · rcases List.mem_singleton.1 hx with rfl
          exact ⟨hw, evs, hevs, by rw [← ha]⟩
      · unfold images
        simp only [← List.append_assoc]
        rw [List.pairwise_append]
        refine ⟨h.order, List.pairwise_singleton _ _, fun x hx y hy => ?_⟩
        rcases List.mem_singleton.1 hy with rfl
        exact h.below x hx
      · intro x hx
        unfold images at hx
        simp only [← List.append_assoc] at hx
        rcases List.mem_append.1 hx with hx | hx
        · exact h.below x hx
        · rcases List.mem_singleton.1 hx with rfl
          exact List.prefix_refl _
    · exact stay
  | arrive =>
    simp only [LateWire.step]
    split
    · rename_i x ins hi
      have hsub : (LateWire.images { s with inp := some x, ins := ins }) <+ s.images := by
        unfold images
        simp only [hi, Option.toList_some, List.append_assoc, List.singleton_append]
        exact (List.Sublist.refl _).append (List.sublist_append_right _ _)
      exact ⟨⟨h.a, h.d, fun y hy => h.had y (hsub.subset hy), h.order.sublist hsub,
        fun y hy => h.below y (hsub.subset hy), h.shown⟩, seenLe_of_eq rfl⟩
    · exact stay
  | lose n =>
    have hsub : (LateWire.images { s with ins := s.ins.eraseIdx n }) <+ s.images :=
      (List.Sublist.refl _).append (List.eraseIdx_sublist _ _)
    exact ⟨⟨h.a, h.d, fun y hy => h.had y (hsub.subset hy), h.order.sublist hsub,
      fun y hy => h.below y (hsub.subset hy), h.shown⟩, seenLe_of_eq rfl⟩
  | cycle po =>
    simp only [LateWire.step]
    split
    · rename_i x hx
      split
      · rename_i d' img' hn
        have hmem : ∀ y, y ∈ (LateWire.images { s with d := d', seen := some x }) → y ∈ s.images := by
          intro y hy
          unfold images at hy ⊢
          simp only [hx, Option.toList_some, List.append_assoc, List.singleton_append, List.mem_cons,
            List.mem_append] at hy ⊢
          tauto
        have hord : (x :: s.ins).Pairwise (fun x y => x.calls <+: y.calls) := by
          refine h.order.sublist ?_
          unfold images
          rw [hx, List.append_assoc]
          exact List.sublist_append_right _ _
        refine ⟨⟨h.a, ?_, fun y hy => h.had y (hmem y hy), ?_, fun y hy => h.below y (hmem y hy), ?_⟩,
          ?_⟩
        · have := reachable_run h.d [.next x.pi po]
          simp only [runC, List.foldl_cons, List.foldl_nil, COp.apply, hn] at this
          exact this
        · unfold images
          simp only [hx, Option.toList_some, List.cons_append, List.nil_append]
          rw [List.pairwise_cons]
          refine ⟨fun y hy => ?_, hord⟩
          rcases List.mem_cons.1 hy with rfl | hy
          · exact List.prefix_refl _
          · exact (List.pairwise_cons.1 hord).1 y hy
        · intro y hy
          cases hy
          exact ⟨s.d, po, d', img', h.d, hn, rfl⟩
        · intro y hy
          refine ⟨x, rfl, ?_⟩
          have := h.order
          unfold images at this
          rw [hy, hx, List.append_assoc] at this
          exact (List.pairwise_cons.1 this).1 x (by simp)
      · exact stay
    · exact stay

theorem Inv.run {s : LateWire} (h : Inv oc wired cfg cfg' c0 img s) (evs : List LateWireEv)
    (hu : ∀ e ∈ evs, LateWire.Admissible oc cfg e) :
    Inv oc wired cfg cfg' c0 img (s.run oc wired evs) ∧ s.SeenLe (s.run oc wired evs) := by
  induction evs generalizing s with
  | nil => exact ⟨h, seenLe_of_eq rfl⟩
  | cons e evs ih =>
    obtain ⟨h1, h2⟩ := h.step e (hu e List.mem_cons_self)
    obtain ⟨h3, h4⟩ := ih h1 fun e he => hu e (List.mem_cons_of_mem _ he)
    refine ⟨h3, fun x hx => ?_⟩
    obtain ⟨y, hy, hxy⟩ := h2 x hx
    obtain ⟨z, hz, hyz⟩ := h4 y hy
    exact ⟨z, hz, hxy.trans hyz⟩

theorem Inv.initial {d0 : Coupler} (h : Coupler.new cfg' = .ok d0) :
    Inv oc wired cfg cfg' c0 img (start c0 d0 img) where
  a := ⟨[], fun _ h => (by cases h), rfl⟩
  d := ⟨d0, [], h, rfl⟩
  had := fun _ h => by cases h
  order := List.Pairwise.nil
  below := fun _ h => by cases h
  shown := fun _ h => by cases h

end

end Spec.LateWire

open Spec.LateWire

/-- C132, order: the image the second application has used last shows the first device with the values
of some of the calls made so far, and in the course of a schedule it never goes back to older ones. -/
theorem C132_order (oc : Bool) (wired : List Word → List Word → Bool) (cfg cfg' : CouplerConfig)
    (c0 d0 : Coupler) (h0 : Coupler.new cfg' = .ok d0) (img : List Word) (evs evs' : List LateWireEv)
    (hu : ∀ e ∈ evs ++ evs', LateWire.Admissible oc cfg e) (x : Sampled)
    (hx : ((LateWire.start c0 d0 img).run oc wired evs).seen = some x) :
    x.calls <+: ((LateWire.start c0 d0 img).run oc wired evs).a.calls ∧
    ∃ y, ((LateWire.start c0 d0 img).run oc wired (evs ++ evs')).seen = some y ∧
      x.calls <+: y.calls := by
  obtain ⟨hi, -⟩ := (Inv.initial (oc := oc) (wired := wired) (cfg := cfg) (c0 := c0) (img := img) h0).run
    evs fun e h => hu e (List.mem_append_left _ h)
  have h2 := (hi.run evs' fun e h => hu e (List.mem_append_right _ h)).2 x hx
  refine ⟨?_, by simpa only [LateWire.run, List.foldl_append] using h2⟩
  obtain ⟨ea, -, ha⟩ := hi.a
  refine (hi.below x (by unfold LateWire.images; rw [hx]; simp)).trans ?_
  rw [ha]
  exact (C130_order oc c0 img ea []).1

/-- C132: a digital output or relay wired to a digital input. What `inputs` shows is the bit of the last
`set_output` of the calls that the image stands for, and what was on at the start if there was none. -/
theorem C132_digital (oc : Bool) (cfg cfg' : CouplerConfig) (c0 d0 : Coupler)
    (hc : Coupler.new cfg = .ok c0) (hd : Coupler.new cfg' = .ok d0) (j : Nat) (hdis : OutputsKept cfg j)
    (t : ModuleType) (par : List Word) (o i : Word) (hcfg : ConfiguredAt cfg j t par o i)
    (hout : DigitalOutput t) (hno : o ≠ noOffset) (hal : o.toNat % 16 = 0 ∨ outputBytes t par = 1)
    (ch : Nat) (hch : ch < outputChannels t)
    (k : Nat) (t' : ModuleType) (par' : List Word) (o' i' : Word)
    (hcfg' : ConfiguredAt cfg' k t' par' o' i') (hin : DigitalInput t') (hno' : i' ≠ noOffset)
    (ch' : Nat) (hch' : ch' < inputChannels t') (img : List Word) (evs : List LateWireEv)
    (hu : ∀ e ∈ evs, LateWire.Admissible oc cfg e) (x : Sampled) :
    let s := (LateWire.start c0 d0 img).run oc (bitWire (outBit o + ch) (i'.toNat + ch')) evs
    s.seen = some x → ∃ vs, s.d.inputs[k]? = some vs ∧
      (∀ b, lastSet ⟨j, ch⟩ x.calls = some (.bit b) → vs[ch']? = some (.bit b)) ∧
      (lastSet ⟨j, ch⟩ x.calls = none → ∀ b, bitAt img (outBit o + ch) = some b →
        vs[ch']? = some (.bit b)) := by
  intro s hx
  obtain ⟨hi, -⟩ := (Inv.initial (oc := oc) (wired := bitWire (outBit o + ch) (i'.toNat + ch'))
    (cfg := cfg) (c0 := c0) (img := img) hd).run evs hu
  obtain ⟨d1, po, d2, img', hr, hn, hsh⟩ := hi.shown x hx
  obtain ⟨hw, ea, hea, hout'⟩ := hi.had x (by unfold LateWire.images; rw [hx]; simp)
  have hser : t ≠ .UR20_1COM_232_485_422 := by
    rcases hout with rfl | rfl | rfl | rfl | rfl <;> decide
  have hval := C130_values oc cfg c0 hc j hdis t par o i hcfg hser hno hal ch hch img ea hea
  simp only [hout'] at hval
  have hset : ∀ (im : List Word) (b : Bool), Settled t par im (outBit o) ch (.bit b) ↔
      bitAt im (outBit o + ch) = some b := by
    intro im b
    rcases hout with rfl | rfl | rfl | rfl | rfl <;>
      simp [Settled]
  have hal' : i'.toNat % 16 = 0 ∨ inputBytes t' par' = 1 := by
    rcases hin with rfl | rfl <;> exact .inr rfl
  obtain ⟨vs, e1, -, e2⟩ := (C70_inputs oc cfg' d1 hr x.pi po img' d2 hn k t' par' o' i' hcfg'
    (by rcases hin with rfl | rfl <;> decide)).2 hno' hal'
  obtain ⟨v, e3, e4⟩ := e2 ch' hch'
  have hv : ∃ b', bitAt x.pi (i'.toNat + ch') = some b' ∧ v = .bit b' := by
    rcases hin with rfl | rfl <;> exact e4
  obtain ⟨b', h1, rfl⟩ := hv
  have hw' : bitAt x.pi (i'.toNat + ch') = bitAt x.out (outBit o + ch) := by
    simpa [bitWire] using hw
  have hfin : ∀ b, bitAt x.out (outBit o + ch) = some b → vs[ch']? = some (.bit b) := by
    intro b hb
    rw [← hw', h1] at hb
    cases hb
    exact e3
  refine ⟨vs, by rw [← e1, ← hsh], fun b hb => hfin b ((hset _ _).1 (hval.1 _ hb)), fun hb b hbi =>
    hfin b ((hset _ _).1 (hval.2 hb _ ((hset _ _).2 hbi)))⟩

/-- C132: an analog output wired to an analog input, with any enabled ranges and formats, and an error
of the wiring of at most `δ`. What `inputs` shows differs from the last number set by the calls that the
image stands for by at most `δ`, 17/16 of a raw unit of the output, the drift of C107 and 1/128 of a raw
unit of the input. -/
theorem C132_analog (oc : Bool) (wired : List Word → List Word → Bool) (cfg cfg' : CouplerConfig)
    (c0 d0 : Coupler) (hc : Coupler.new cfg = .ok c0) (hd : Coupler.new cfg' = .ok d0)
    (j : Nat) (hdis : OutputsKept cfg j)
    (t : ModuleType) (par : List Word) (o i : Word) (hcfg : ConfiguredAt cfg j t par o i)
    (hno : o ≠ noOffset) (hal : o.toNat % 16 = 0) (ch : Nat) (hch : ch < 4)
    (r : AnalogUIRange) (f : DataFormat) (hf : OutputFormat t par ch r f)
    (s : ℚ × ℚ) (hs : uiScale r = some s)
    (k : Nat) (t' : ModuleType) (par' : List Word) (o' i' : Word)
    (hcfg' : ConfiguredAt cfg' k t' par' o' i') (hno' : i' ≠ noOffset) (hal' : i'.toNat % 16 = 0)
    (ch' : Nat) (hch' : ch' < inputChannels t')
    (r' : AnalogUIRange) (f' : DataFormat) (hf' : InputFormat t' par' ch' r' f')
    (s' : ℚ × ℚ) (hs' : uiScale r' = some s') (δ : ℚ)
    (wire : ∀ out pi, wired out pi = true → ∀ w w', out[outBit o / 16 + ch]? = some w →
      pi[i'.toNat / 16 + ch']? = some w' → |physical s' f' w'.toInt - physical s f w.toInt| ≤ δ)
    (img : List Word) (w0 : Word) (hw0 : img[outBit o / 16 + ch]? = some w0) (evs : List LateWireEv)
    (hu : ∀ e ∈ evs, LateWire.Admissible oc cfg e) (x : Sampled) (q : ℚ) (hq : Single q)
    (hrange : |exactRaw s f q| ≤ 32767) (hl : lastSet ⟨j, ch⟩ x.calls = some (.decimal32 (.fin q))) :
    let st := (LateWire.start c0 d0 img).run oc wired evs
    st.seen = some x → ∃ vs y, st.d.inputs[k]? = some vs ∧ vs[ch']? = some (.decimal32 (.fin y)) ∧
      |y - q| ≤ δ + (17 / 16 + maxDrift r) * rawUnit s f + rawUnit s' f' / 128 := by
  intro st hx
  obtain ⟨hi, -⟩ := (Inv.initial (oc := oc) (wired := wired) (cfg := cfg) (c0 := c0) (img := img) hd).run
    evs hu
  obtain ⟨d1, po, d2, img', hr, hn, hsh⟩ := hi.shown x hx
  obtain ⟨hw, ea, hea, hout'⟩ := hi.had x (by unfold LateWire.images; rw [hx]; simp)
  have hen : r ≠ .Disabled := by rintro rfl; cases hs
  have hser' : t' ≠ .UR20_1COM_232_485_422 := by rintro rfl; exact hf'
  have hval := (C130_analog oc cfg c0 hc j hdis t par o i hcfg hno hal ch hch r f hf hen img ea hea w0
    hw0).1
  simp only [hout'] at hval
  obtain ⟨w, e, w1, he, w2⟩ := hval _ hl
  have he' : EncodedAs (r, f) (.fin q) e := by
    rcases he with ⟨x', hx', he⟩ | ⟨h, -⟩
    · cases hx'; exact he
    · cases h
  obtain ⟨vs, e1, -, e2⟩ := (C70_inputs oc cfg' d1 hr x.pi po img' d2 hn k t' par' o' i' hcfg'
    hser').2 hno' (.inl hal')
  obtain ⟨v, e3, e4⟩ := e2 ch' hch'
  obtain ⟨w', g1, g2⟩ := shown_reading e4 hf'
  obtain ⟨y, rfl, g3⟩ := reading_close hs' g2
  refine ⟨vs, y, by rw [← e1, ← hsh], e3, ?_⟩
  have a2 := wire x.out x.pi hw w w' w1 g1
  have hs1 : 0 < s.2 - s.1 := by
    clear hen hval he' w2 hf
    cases r <;> simp only [uiScale] at hs <;> cases hs <;> norm_num
  have hfs : 0 < fullScale f := by cases f <;> norm_num [fullScale]
  have hst0 : 0 < rawUnit s f := div_pos hs1 hfs
  have a1 : |physical s f w.toInt - q| ≤ (17 / 16 + maxDrift r) * rawUnit s f := by
    simp only [EncodedAs, hs] at he'
    obtain ⟨-, -, he'⟩ := he'.2.2.2 q rfl hq
    obtain ⟨h1, -⟩ := he' (by linarith [(abs_le.1 hrange).1]) (by linarith [(abs_le.1 hrange).2])
    have e0 : physical s f w.toInt - q = ((w.toInt : ℚ) - exactRaw s f q) * rawUnit s f := by
      simp only [physical, exactRaw, rawUnit]
      have := hfs.ne'
      have := hs1.ne'
      field_simp
      ring
    rw [e0, abs_mul, abs_of_pos hst0]
    refine mul_le_mul_of_nonneg_right ?_ hst0.le
    have w3 : |(w.toInt : ℚ) - e| ≤ maxDrift r := by exact_mod_cast w2
    rw [abs_lt] at h1
    rw [abs_le] at w3 ⊢
    constructor <;> linarith
  rw [abs_le] at a1 a2 g3 ⊢
  constructor <;> linarith

theorem lateWire_first (oc : Bool) (wired : List Word → List Word → Bool) (evs : List LateOutEv)
    (s : LateWire) : s.run oc wired (evs.map .first) = { s with a := s.a.run oc evs } := by
  induction evs generalizing s with
  | nil => rfl
  | cons e evs ih =>
    change (s.step oc wired (.first e)).run oc wired (evs.map .first) = _
    rw [ih]
    rfl

theorem lateWire_arrive (oc : Bool) (wired : List Word → List Word → Bool) (ins : List Sampled)
    (s : LateWire) (x : Sampled) (h : s.ins = ins ++ [x]) :
    s.run oc wired (List.replicate (ins.length + 1) .arrive) = { s with inp := some x, ins := [] } := by
  induction ins generalizing s with
  | nil =>
    change s.step oc wired .arrive = _
    simp only [LateWire.step, h, List.nil_append]
  | cons y ins ih =>
    have : s.step oc wired .arrive = { s with inp := some y, ins := ins ++ [x] } := by
      simp only [LateWire.step, h, List.cons_append]
    change (s.step oc wired .arrive).run oc wired (List.replicate (ins.length + 1) .arrive) = _
    rw [this, ih _ rfl]

/-- The two images of a round arrive at the second application. -/
theorem lateWire_round (oc : Bool) (wired : List Word → List Word → Bool) (s : LateWire)
    (pi new : List Word) (hn : (s.a.c.next oc pi s.a.kept.2).2 = .ok new) (pi' : List Word)
    (hw : wired new pi' = true) :
    let t := s.run oc wired ((.cycle pi :: List.replicate (s.a.outs.length + 1) .deliver).map .first ++
      .sample pi' :: List.replicate (s.ins.length + 1) .arrive)
    t.d = s.d ∧ t.inp = some ⟨s.a.calls, new, pi'⟩ := by
  intro t
  have h1 : (s.a.run oc (.cycle pi :: List.replicate (s.a.outs.length + 1) .deliver)).out =
      (s.a.calls, new) := by
    have hs : s.a.step oc (.cycle pi) = { s.a with
        c := (s.a.c.next oc pi s.a.kept.2).1, kept := (s.a.calls, new)
        outs := s.a.outs ++ [(s.a.calls, new)] } := by
      have : s.a.c.next oc pi s.a.kept.2 = ((s.a.c.next oc pi s.a.kept.2).1, .ok new) := Prod.ext rfl hn
      simp only [LateOut.step]
      rw [this]
    change LateOut.out ((s.a.step oc (.cycle pi)).run oc
      (List.replicate (s.a.outs.length + 1) .deliver)) = _
    exact lateOut_deliver oc s.a.outs _ _ (by rw [hs])
  have happ : ∀ (t : LateWire) xs ys, t.run oc wired (xs ++ ys) = (t.run oc wired xs).run oc wired ys :=
    fun t xs ys => by simp only [LateWire.run, List.foldl_append]
  simp only [t]
  rw [happ, lateWire_first]
  generalize s.a.run oc (.cycle pi :: List.replicate (s.a.outs.length + 1) .deliver) = a' at h1
  have h2 : LateWire.step oc wired { s with a := a' } (.sample pi') =
      { s with a := a', ins := s.ins ++ [⟨s.a.calls, new, pi'⟩] } := by
    simp only [LateWire.step, h1, hw, if_true]
  have h3 : LateWire.run oc wired { s with a := a' }
      (.sample pi' :: List.replicate (s.ins.length + 1) .arrive) =
      { s with a := a', inp := some ⟨s.a.calls, new, pi'⟩, ins := [] } := by
    change LateWire.run oc wired (LateWire.step oc wired { s with a := a' } (.sample pi'))
      (List.replicate (s.ins.length + 1) .arrive) = _
    rw [h2, lateWire_arrive oc wired s.ins _ ⟨s.a.calls, new, pi'⟩ rfl]
  rw [h3]
  exact ⟨rfl, rfl⟩

/-- C132, arrival: whatever was late or lost before, if a cycle of the first application succeeds, its
image arrives, the second device sends an image of its inputs, this image arrives and a cycle of the
second application succeeds then `inputs` shows the effect of all calls made. -/
theorem C132_arrives (oc : Bool) (wired : List Word → List Word → Bool) (c0 d0 : Coupler)
    (img : List Word) (evs : List LateWireEv) (pi new : List Word) :
    let s := (LateWire.start c0 d0 img).run oc wired evs
    (s.a.c.next oc pi s.a.kept.2).2 = .ok new →
    ∀ pi', wired new pi' = true → ∀ po img', (s.d.next oc pi' po).2 = .ok img' →
    (s.run oc wired ((.cycle pi :: List.replicate (s.a.outs.length + 1) .deliver).map .first ++
      .sample pi' :: List.replicate (s.ins.length + 1) .arrive ++ [.cycle po])).seen =
      some ⟨s.a.calls, new, pi'⟩ := by
  intro s hn pi' hw po img' hn'
  obtain ⟨h1, h2⟩ := lateWire_round oc wired s pi new hn pi' hw
  rw [LateWire.run, List.foldl_append]
  change (LateWire.step oc wired (LateWire.run oc wired s _) (.cycle po)).seen = _
  have h3 : s.d.next oc pi' po = ((s.d.next oc pi' po).1, .ok img') := Prod.ext rfl hn'
  simp only [LateWire.step, h1, h2]
  rw [h3]

/-! ### The hypotheses are satisfiable -/

/-- Four digital inputs. -/
def exDiCfg : CouplerConfig where
  modules := [.UR20_4DI_P]
  offsets := [0xFFFF, 0x0000]
  params := [[0, 0, 0, 0]]

/-- Relay 2 of `exRelay` is wired to input 3. It is switched on; the image of the inputs taken before is
late, and so is the image of the outputs. -/
def exLateWire : List LateWireEv :=
  [.sample [0#16], .first (.call (.setOutput ⟨0, 1⟩ (.bit true))), .first (.cycle []), .arrive, .cycle [],
    .sample [0#16]]

example : ∃ c d, Coupler.new exRelay = .ok c ∧ Coupler.new exDiCfg = .ok d ∧
    let s := (LateWire.start c d [0#16]).run true (bitWire 1 2) exLateWire
    let t := s.run true (bitWire 1 2) [.first .deliver, .sample [4#16], .lose 0, .arrive, .cycle []]
    s.seen.map (·.calls.length) = some 0 ∧ s.d.inputs[0]?.bind (·[2]?) = some (.bit false) ∧
    t.seen.map (·.calls.length) = some 1 ∧ t.d.inputs[0]?.bind (·[2]?) = some (.bit true) :=
  ⟨_, _, rfl, rfl, rfl, rfl, rfl, rfl⟩

/-- The hypotheses of `C132_digital` are met. -/
example (c d : Coupler) (h : Coupler.new exRelay = .ok c) (h' : Coupler.new exDiCfg = .ok d) :=
  C132_digital true exRelay exDiCfg c d h h' 0 (exRelay_disjoint 0) .UR20_4RO_CO_255 _ 0x8000#16 _
    ⟨rfl, rfl, rfl, rfl⟩ (by unfold DigitalOutput; decide) (by decide) (.inl (by decide)) 1 (by decide)
    0 .UR20_4DI_P _ _ 0x0000#16 ⟨rfl, rfl, rfl, rfl⟩ (.inl rfl) (by decide) 2 (by decide) [0#16]
    exLateWire (by
      intro e he
      simp only [exLateWire, List.mem_cons, List.not_mem_nil, or_false] at he
      rcases he with rfl | rfl | rfl | rfl | rfl | rfl <;> trivial)

/-- An analog input module, 0 to 20 mA in the format S7. -/
def exAiCfg : CouplerConfig where
  modules := [.UR20_4AI_UI_16]
  offsets := [0xFFFF, 0x0000]
  params := [[0, 1, 0, 1, 0, 1, 0, 1, 0]]

/-- An analog output module, 0 to 20 mA in the format S7. -/
def exAo1Cfg : CouplerConfig where
  modules := [.UR20_4AO_UI_16]
  offsets := [0x8000, 0xFFFF]
  params := [[1, 0, 0, 1, 0, 0, 1, 0, 0, 1, 0, 0]]

theorem exAo1_disjoint : DisjointOutputs exAo1Cfg := by
  refine disjointOutputs_of ?_
  have one : ∀ {j t par o i}, ConfiguredAt exAo1Cfg j t par o i → j = 0 := by
    intro j t par o i h
    have := List.getElem?_eq_some_iff.1 h.1
    obtain ⟨hlt, -⟩ := this
    simp only [exAo1Cfg, List.length_singleton] at hlt
    omega
  intro j k t par o i t' par' o' i' p h1 h2 _ _ _ _ _ _
  rw [one h1, one h2]

/-- The register of the first analog output is the one of the second analog input. -/
def exAnalogWire (out pi : List Word) : Bool := pi[1]? == out[0]?

/-- 4110/1024 mA is set and its image late. -/
def exLateAnalog : List LateWireEv :=
  [.first (.call (.setOutput ⟨0, 0⟩ (.decimal32 (.fin (4110 / 1024))))), .first (.cycle []),
    .first (.cycle []), .sample [0#16, 45#16, 0#16, 0#16], .arrive, .cycle [], .first .deliver,
    .sample [0#16, 5548#16, 0#16, 0#16], .arrive, .cycle []]

example : ∃ c d, Coupler.new exAo1Cfg = .ok c ∧ Coupler.new exAiCfg = .ok d ∧
    let s := (LateWire.start c d [45#16, 0#16, 0#16, 0#16]).run true exAnalogWire exLateAnalog
    s.seen.map (·.calls.length) = some 1 ∧
    s.d.inputs[0]?.bind (·[1]?) = some (.decimal32 (.fin (8416521 / 2097152))) :=
  ⟨_, _, rfl, rfl, by decide +kernel, by decide +kernel⟩

/-- The hypotheses of `C132_analog` are met. -/
example (c d : Coupler) (h : Coupler.new exAo1Cfg = .ok c) (h' : Coupler.new exAiCfg = .ok d)
    (x : Sampled) :=
  C132_analog true exAnalogWire exAo1Cfg exAiCfg c d h h' 0 (exAo1_disjoint 0) .UR20_4AO_UI_16
    _ 0x8000#16 _ ⟨rfl, rfl, rfl, rfl⟩ (by decide) (by decide) 0 (by decide) .mA0To20 .S7
    ⟨⟨_, rfl, rfl⟩, ⟨_, rfl, rfl⟩⟩ _ rfl 0 .UR20_4AI_UI_16 _ _ 0x0000#16 ⟨rfl, rfl, rfl, rfl⟩
    (by decide) (by decide) 1 (by decide) .mA0To20 .S7 ⟨⟨_, rfl, rfl⟩, ⟨_, rfl, rfl⟩⟩ _ rfl 0
    (by
      intro out pi hw w w' h1 h2
      have e : pi[1]? = out[0]? := by simpa [exAnalogWire] using hw
      have e1 : out[0]? = some w := h1
      have e2 : pi[1]? = some w' := h2
      rw [e, e1] at e2
      cases e2
      simp)
    [45#16, 0#16, 0#16, 0#16] 45#16 rfl exLateAnalog (by
      intro e he
      simp only [exLateAnalog, List.mem_cons, List.not_mem_nil, or_false] at he
      rcases he with rfl | rfl | rfl | rfl | rfl | rfl | rfl | rfl | rfl | rfl <;> trivial) x
    (4110 / 1024) ⟨4110, -10, by norm_num, by norm_num, by norm_num, by norm_num⟩ (by norm_num [exactRaw, fullScale])

end Ur20
