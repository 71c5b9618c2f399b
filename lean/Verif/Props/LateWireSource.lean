import Verif.Spec.LateWireSource
import Verif.Props.LateWireDrop
import Verif.Props.LateShownSource

/-!
# C159 for the translated source
-/

namespace Ur20

open Spec

open Src.ur20_fbc_mod_tcp (embed)

open scoped List

namespace Src

/-- The step of `Spec/LateWireDrop.lean` that a step stands for; `c` is a new coupler. -/
def wireEv (c : Ur20.Coupler) : Spec.Src.WireEv → WireDropEv
  | .call op => .ev (.first (.call op))
  | .cycle pi => .ev (.first (.cycle pi))
  | .failing pi po => .ev (.first (.failing pi po))
  | .again => .ev (.first .again)
  | .deliver => .ev (.first .deliver)
  | .loseOut n => .ev (.first (.lose n))
  | .restart => .ev (.first (.restart c))
  | .call' op => .ev (.call op)
  | .sample pi => .ev (.sample pi)
  | .arrive => .ev .arrive
  | .loseIn n => .ev (.lose n)
  | .cycle' po => .ev (.cycle po)
  | .restart' => .restart

/-- The stations with the translated source and those with the model are in the same state. -/
structure SameWire (s : Spec.Src.LateWire) (t : Spec.LateWire) : Prop where
  c : ∃ i, s.c = embed i ∧ Imp.SameC i t.a.c
  calls : s.calls = t.a.calls
  kept : s.kept = t.a.kept
  outs : s.outs = t.a.outs
  out : s.out = t.a.out
  d : ∃ i, s.d = embed i ∧ Imp.SameC i t.d
  ins : s.ins = t.ins
  inp : s.inp = t.inp
  seen : s.seen = t.seen

theorem SameWire.step {s : Spec.Src.LateWire} {t : Spec.LateWire} (h : SameWire s t) (oc : Bool)
    (cfg cfg' : CouplerConfig) (wired : List Word → List Word → Bool) (ord : Imp.Orders)
    (fill : Nat → Byte) {c d : ur20_fbc_mod_tcp.Coupler} {c0 d0 : Ur20.Coupler}
    (hc : ∃ i, c = embed i ∧ Imp.SameC i c0) (hd : ∃ i, d = embed i ∧ Imp.SameC i d0)
    (e : Spec.Src.WireEv) :
    SameWire (s.step oc cfg cfg' wired ord fill c d e) (t.dstep oc cfg cfg' wired d0 (wireEv c0 e)) := by
  obtain ⟨c1, calls, kept, outs, out, d1, ins, inp, seen⟩ := s
  obtain ⟨⟨c2, calls', kept', outs', out'⟩, d2, ins', inp', seen'⟩ := t
  obtain ⟨h1, h2, h3, h4, h5, h6, h7, h8, h9⟩ := id h
  simp only at h1 h2 h3 h4 h5 h6 h7 h8 h9
  subst h2 h3 h4 h5 h7 h8 h9
  cases e with
  | call op =>
    cases op with
    | next pi po => exact h
    | setOutput a v =>
      exact ⟨(same_called h1 oc ord fill (.setOutput a v) trivial).1, rfl, rfl, rfl, rfl, h6, rfl, rfl, rfl⟩
    | read n len =>
      exact ⟨(same_called h1 oc ord fill (.read n len) trivial).1, rfl, rfl, rfl, rfl, h6, rfl, rfl, rfl⟩
    | write n buf =>
      exact ⟨(same_called h1 oc ord fill (.write n buf) trivial).1, rfl, rfl, rfl, rfl, h6, rfl, rfl, rfl⟩
  | cycle pi =>
    simp only [Spec.Src.LateWire.step, wireEv, LateWire.dstep, LateWire.step, LateOut.step]
    obtain ⟨g1, g2⟩ := same_next h1 oc ord fill pi kept.2
    generalize Spec.Src.call oc c1 ord fill (.next pi kept.2) = r at g1 g2 ⊢
    obtain ⟨c', r⟩ := r
    simp only at g1 g2
    subst g1
    generalize c2.next oc pi kept.2 = x at g2 ⊢
    obtain ⟨c'', x⟩ := x
    cases x with
    | ok img => exact ⟨g2 (by simp), rfl, rfl, rfl, rfl, h6, rfl, rfl, rfl⟩
    | err e => exact h
    | panic => exact h
  | failing pi po =>
    simp only [Spec.Src.LateWire.step, wireEv, LateWire.dstep, LateOut.step]
    obtain ⟨g1, g2⟩ := same_next h1 oc ord fill pi po
    generalize Spec.Src.call oc c1 ord fill (.next pi po) = r at g1 g2 ⊢
    obtain ⟨c', r⟩ := r
    simp only at g1 g2
    subst g1
    generalize c2.next oc pi po = x at g2 ⊢
    obtain ⟨c'', x⟩ := x
    cases x with
    | ok img =>
      refine ⟨h1, ?_, rfl, rfl, rfl, h6, rfl, rfl, rfl⟩
      simp
    | err e =>
      refine ⟨g2 (by simp), ?_, rfl, rfl, rfl, h6, rfl, rfl, rfl⟩
      by_cases hq : Decodable cfg pi po
      · simp only [if_pos hq]
        rw [if_pos ⟨hq, e, rfl⟩]
      · simp only [if_neg hq]
        rw [if_neg fun g => hq g.1]
    | panic =>
      refine ⟨h1, ?_, rfl, rfl, rfl, h6, rfl, rfl, rfl⟩
      simp
  | again => exact ⟨h1, rfl, rfl, rfl, rfl, h6, rfl, rfl, rfl⟩
  | deliver =>
    cases outs with
    | nil => exact h
    | cons o outs => exact ⟨h1, rfl, rfl, rfl, rfl, h6, rfl, rfl, rfl⟩
  | loseOut n => exact ⟨h1, rfl, rfl, rfl, rfl, h6, rfl, rfl, rfl⟩
  | restart => exact ⟨hc, rfl, rfl, rfl, rfl, h6, rfl, rfl, rfl⟩
  | call' op =>
    cases op with
    | next pi po => exact h
    | setOutput a v =>
      exact ⟨h1, rfl, rfl, rfl, rfl, (same_called h6 oc ord fill (.setOutput a v) trivial).1, rfl, rfl, rfl⟩
    | read n len =>
      exact ⟨h1, rfl, rfl, rfl, rfl, (same_called h6 oc ord fill (.read n len) trivial).1, rfl, rfl, rfl⟩
    | write n buf =>
      exact ⟨h1, rfl, rfl, rfl, rfl, (same_called h6 oc ord fill (.write n buf) trivial).1, rfl, rfl, rfl⟩
  | sample pi =>
    simp only [Spec.Src.LateWire.step, wireEv, LateWire.dstep, LateWire.step]
    split_ifs
    · exact ⟨h1, rfl, rfl, rfl, rfl, h6, rfl, rfl, rfl⟩
    · exact h
  | arrive =>
    cases ins with
    | nil => exact h
    | cons o ins => exact ⟨h1, rfl, rfl, rfl, rfl, h6, rfl, rfl, rfl⟩
  | loseIn n => exact ⟨h1, rfl, rfl, rfl, rfl, h6, rfl, rfl, rfl⟩
  | cycle' po =>
    cases inp with
    | none => exact h
    | some x =>
      simp only [Spec.Src.LateWire.step, wireEv, LateWire.dstep]
      obtain ⟨g1, g2⟩ := same_next h6 oc ord fill x.pi po
      generalize Spec.Src.call oc d1 ord fill (.next x.pi po) = r at g1 g2 ⊢
      obtain ⟨c', r⟩ := r
      simp only at g1 g2
      subst g1
      generalize d2.next oc x.pi po = y at g2 ⊢
      obtain ⟨c'', y⟩ := y
      cases y with
      | ok img => exact ⟨h1, rfl, rfl, rfl, rfl, g2 (by simp), rfl, rfl, rfl⟩
      | err e => exact ⟨h1, rfl, rfl, rfl, rfl, g2 (by simp), rfl, rfl, rfl⟩
      | panic => exact h
  | restart' => exact ⟨h1, rfl, rfl, rfl, rfl, hd, rfl, rfl, rfl⟩

theorem SameWire.run {oc : Bool} {cfg cfg' : CouplerConfig} {wired : List Word → List Word → Bool}
    (ord : Nat → Imp.Orders) (fill : Nat → Nat → Byte) {c d : ur20_fbc_mod_tcp.Coupler}
    {c0 d0 : Ur20.Coupler} (hc : ∃ i, c = embed i ∧ Imp.SameC i c0)
    (hd : ∃ i, d = embed i ∧ Imp.SameC i d0) (evs : List Spec.Src.WireEv) :
    ∀ (k : Nat) {s : Spec.Src.LateWire} {t : Spec.LateWire}, SameWire s t →
      SameWire (s.run oc cfg cfg' wired ord fill c d k evs)
        (t.drun oc cfg cfg' wired d0 (evs.map (wireEv c0))) := by
  induction evs with
  | nil => intro k s t h; exact h
  | cons e evs ih =>
    intro k s t h
    exact ih (k + 1) (h.step oc cfg cfg' wired (ord k) (fill k) hc hd e)

theorem wireEv_sound {oc : Bool} {cfg : CouplerConfig} {c0 : Ur20.Coupler} (hc : Ur20.Coupler.new cfg = .ok c0)
    {evs : List Spec.Src.WireEv} (hu : Spec.Src.LateWire.SmallImages oc cfg evs) :
    ∀ e ∈ evs.map (wireEv c0), LateWire.Sound oc cfg e := by
  intro e he
  obtain ⟨e, hm, rfl⟩ := List.mem_map.1 he
  cases e with
  | failing pi po => exact hu pi po hm
  | restart => exact hc
  | _ => trivial

end Src

section

variable (oc : Bool) (cfg cfg' : CouplerConfig) (ord : Nat → Imp.Orders) (fill : Nat → Nat → Byte)
  (c0 d0 : Src.ur20_fbc_mod_tcp.Coupler) (hc : Src.ur20_fbc_mod_tcp.Coupler.new oc cfg = .ok c0)
  (hd : Src.ur20_fbc_mod_tcp.Coupler.new oc cfg' = .ok d0)

include hc hd

/-- C159 for the translated source, order. -/
theorem C159_source_order (wired : List Word → List Word → Bool)
    (img : List Word) (evs evs' : List Spec.Src.WireEv)
    (hu : Spec.Src.LateWire.SmallImages oc cfg (evs ++ evs')) (x : Sampled) :
    let s := (Spec.Src.LateWire.start c0 d0 img).run oc cfg cfg' wired ord fill c0 d0 0 evs
    s.seen = some x → x.calls <+: s.calls ∧
      ∀ y, (s.run oc cfg cfg' wired ord fill c0 d0 evs.length evs').seen = some y → x.calls <+: y.calls := by
  intro s hx
  obtain ⟨c, i1, n1, rfl, s1⟩ := Src.new_model hc
  obtain ⟨d, i2, n2, rfl, s2⟩ := Src.new_model hd
  have hr : Src.SameWire s _ := Src.SameWire.run (oc := oc) (cfg := cfg) (cfg' := cfg') (wired := wired)
    ord fill ⟨i1, rfl, s1⟩ ⟨i2, rfl, s2⟩ evs 0 (s := Spec.Src.LateWire.start _ _ img)
    (t := LateWire.start c d img) ⟨⟨i1, rfl, s1⟩, rfl, rfl, rfl, rfl, ⟨i2, rfl, s2⟩, rfl, rfl, rfl⟩
  have hu' := Src.wireEv_sound n1 hu
  rw [List.map_append] at hu'
  obtain ⟨g1, g2⟩ := C159_order oc wired cfg cfg' c d n2 img (evs.map (Src.wireEv c))
    (evs'.map (Src.wireEv c)) hu' x (hr.seen.symm.trans hx)
  refine ⟨by rw [hr.calls]; exact g1, fun y hy => g2 y ?_⟩
  have hr' := Src.SameWire.run (oc := oc) (cfg := cfg) (cfg' := cfg') (wired := wired)
    ord fill ⟨i1, rfl, s1⟩ ⟨i2, rfl, s2⟩ evs' evs.length hr
  exact hr'.seen.symm.trans hy

/-- C159 for the translated source: a digital output or relay wired to a digital input. -/
theorem C159_source_digital (j : Nat) (hdis : OutputsKept cfg j)
    (t : ModuleType) (par : List Word) (o i : Word) (hcfg : ConfiguredAt cfg j t par o i)
    (hout : DigitalOutput t) (hno : o ≠ noOffset) (hal : o.toNat % 16 = 0 ∨ outputBytes t par = 1)
    (ch : Nat) (hch : ch < outputChannels t)
    (k : Nat) (t' : ModuleType) (par' : List Word) (o' i' : Word)
    (hcfg' : ConfiguredAt cfg' k t' par' o' i') (hin : DigitalInput t') (hno' : i' ≠ noOffset)
    (ch' : Nat) (hch' : ch' < inputChannels t') (img : List Word) (evs : List Spec.Src.WireEv)
    (hu : Spec.Src.LateWire.SmallImages oc cfg evs) (x : Sampled) :
    let s := (Spec.Src.LateWire.start c0 d0 img).run oc cfg cfg'
      (LateWire.bitWire (outBit o + ch) (i'.toNat + ch')) ord fill c0 d0 0 evs
    s.seen = some x → ∃ ins vs, Src.ur20_fbc_mod_tcp.Coupler.inputs oc s.d = .ok ins ∧
      ins[k]? = some vs ∧
      (∀ b, lastSet ⟨j, ch⟩ x.calls = some (.bit b) → vs[ch']? = some (.bit b)) ∧
      (lastSet ⟨j, ch⟩ x.calls = none → ∀ b, bitAt img (outBit o + ch) = some b →
        vs[ch']? = some (.bit b)) := by
  intro s hx
  obtain ⟨c, i1, n1, rfl, s1⟩ := Src.new_model hc
  obtain ⟨d, i2, n2, rfl, s2⟩ := Src.new_model hd
  have hr : Src.SameWire s _ := Src.SameWire.run (oc := oc) (cfg := cfg) (cfg' := cfg')
    (wired := LateWire.bitWire (outBit o + ch) (i'.toNat + ch')) ord fill ⟨i1, rfl, s1⟩ ⟨i2, rfl, s2⟩ evs 0 (s := Spec.Src.LateWire.start _ _ img)
    (t := LateWire.start c d img) ⟨⟨i1, rfl, s1⟩, rfl, rfl, rfl, rfl, ⟨i2, rfl, s2⟩, rfl, rfl, rfl⟩
  obtain ⟨vs, e1, e2⟩ := C159_digital oc cfg cfg' c d n1 n2 j hdis t par o i hcfg hout hno hal ch hch k t'
    par' o' i' hcfg' hin hno' ch' hch' img (evs.map (Src.wireEv c)) (Src.wireEv_sound n1 hu) x
    (hr.seen.symm.trans hx)
  exact ⟨_, vs, (Src.same_shown hr.d oc).1, e1, e2⟩

/-- C159 for the translated source: an analog output wired to an analog input. -/
theorem C159_source_analog (wired : List Word → List Word → Bool)
    (j : Nat) (hdis : OutputsKept cfg j)
    (t : ModuleType) (par : List Word) (o i : Word) (hcfg : ConfiguredAt cfg j t par o i)
    (hno : o ≠ noOffset) (hal : o.toNat % 16 = 0) (ch : Nat) (hch : ch < 4)
    (r : AnalogUIRange) (f : DataFormat) (hf : OutputFormat t par ch r f)
    (s : ℚ × ℚ) (hs : uiScale r = some s)
    (k : Nat) (t' : ModuleType) (par' : List Word) (o' i' : Word)
    (hcfg' : ConfiguredAt cfg' k t' par' o' i') (hno' : i' ≠ noOffset) (hal' : i'.toNat % 16 = 0)
    (ch' : Nat) (hch' : ch' < inputChannels t')
    (r' : AnalogUIRange) (f' : DataFormat) (hf' : InputFormat t' par' ch' r' f')
    (s' : ℚ × ℚ) (hs' : uiScale r' = some s') (δ : ℚ)
    (wire : ∀ out pi, wired out pi = true → ∀ w w', out[outBit o / 16 + ch]? = some w →
      pi[i'.toNat / 16 + ch']? = some w' → |physical s' f' w'.toInt - physical s f w.toInt| ≤ δ)
    (img : List Word) (w0 : Word) (hw0 : img[outBit o / 16 + ch]? = some w0) (evs : List Spec.Src.WireEv)
    (hu : Spec.Src.LateWire.SmallImages oc cfg evs) (x : Sampled) (q : ℚ) (hq : Single q)
    (hrange : |exactRaw s f q| ≤ 32767) (hl : lastSet ⟨j, ch⟩ x.calls = some (.decimal32 (.fin q))) :
    let st := (Spec.Src.LateWire.start c0 d0 img).run oc cfg cfg' wired ord fill c0 d0 0 evs
    st.seen = some x → ∃ ins vs y, Src.ur20_fbc_mod_tcp.Coupler.inputs oc st.d = .ok ins ∧
      ins[k]? = some vs ∧ vs[ch']? = some (.decimal32 (.fin y)) ∧
      |y - q| ≤ δ + (17 / 16 + maxDrift r) * rawUnit s f + rawUnit s' f' / 128 := by
  intro st hx
  obtain ⟨c, i1, n1, rfl, s1⟩ := Src.new_model hc
  obtain ⟨d, i2, n2, rfl, s2⟩ := Src.new_model hd
  have hr : Src.SameWire st _ := Src.SameWire.run (oc := oc) (cfg := cfg) (cfg' := cfg') (wired := wired)
    ord fill ⟨i1, rfl, s1⟩ ⟨i2, rfl, s2⟩ evs 0 (s := Spec.Src.LateWire.start _ _ img)
    (t := LateWire.start c d img) ⟨⟨i1, rfl, s1⟩, rfl, rfl, rfl, rfl, ⟨i2, rfl, s2⟩, rfl, rfl, rfl⟩
  obtain ⟨vs, y, e1, e2⟩ := C159_analog oc wired cfg cfg' c d n1 n2 j hdis t par o i hcfg hno hal ch hch r f
    hf s hs k t' par' o' i' hcfg' hno' hal' ch' hch' r' f' hf' s' hs' δ wire img w0 hw0
    (evs.map (Src.wireEv c)) (Src.wireEv_sound n1 hu) x q hq hrange hl (hr.seen.symm.trans hx)
  exact ⟨_, vs, y, (Src.same_shown hr.d oc).1, e1, e2⟩

/-- C159 for the translated source, arrival. -/
theorem C159_source_arrives (wired : List Word → List Word → Bool) (img : List Word)
    (evs : List Spec.Src.WireEv) (pi new : List Word) (ord' ord'' : Imp.Orders) (fill' fill'' : Nat → Byte) :
    let s := (Spec.Src.LateWire.start c0 d0 img).run oc cfg cfg' wired ord fill c0 d0 0 evs
    (Spec.Src.call oc s.c ord' fill' (.next pi s.kept.2)).2 = .next (.ok new) →
    ∀ pi', wired new pi' = true → ∀ po,
      ((∃ img', (Spec.Src.call oc s.d ord'' fill'' (.next pi' po)).2 = .next (.ok img')) ∨
      (InputsPresent cfg' pi' ∧ ∃ e, (Spec.Src.call oc s.d ord'' fill'' (.next pi' po)).2 = .next (.err e))) →
    (s.run oc cfg cfg' wired ord fill c0 d0 evs.length
      (.cycle pi :: List.replicate (s.outs.length + 1) .deliver ++
        .sample pi' :: List.replicate (s.ins.length + 1) .arrive ++ [.cycle' po])).seen =
      some ⟨s.calls, new, pi'⟩ := by
  intro s hn pi' hw po hn'
  obtain ⟨c, i1, n1, rfl, s1⟩ := Src.new_model hc
  obtain ⟨d, i2, n2, rfl, s2⟩ := Src.new_model hd
  have hr : Src.SameWire s _ := Src.SameWire.run (oc := oc) (cfg := cfg) (cfg' := cfg') (wired := wired)
    ord fill ⟨i1, rfl, s1⟩ ⟨i2, rfl, s2⟩ evs 0 (s := Spec.Src.LateWire.start _ _ img)
    (t := LateWire.start c d img) ⟨⟨i1, rfl, s1⟩, rfl, rfl, rfl, rfl, ⟨i2, rfl, s2⟩, rfl, rfl, rfl⟩
  rw [(Src.same_next hr.c oc ord' fill' pi _).1, hr.kept] at hn
  rw [(Src.same_next hr.d oc ord'' fill'' pi' po).1] at hn'
  have g := C159_arrives oc wired cfg cfg' c d img (evs.map (Src.wireEv c)) pi new (Ret.next.inj hn) pi' hw po
    (hn'.imp (fun ⟨i, h⟩ => ⟨i, Ret.next.inj h⟩) fun ⟨h, i, h'⟩ => ⟨h, i, Ret.next.inj h'⟩)
  have hr' := Src.SameWire.run (oc := oc) (cfg := cfg) (cfg' := cfg') (wired := wired)
    ord fill ⟨i1, rfl, s1⟩ ⟨i2, rfl, s2⟩ (.cycle pi :: List.replicate (s.outs.length + 1) .deliver ++
        .sample pi' :: List.replicate (s.ins.length + 1) .arrive ++ [.cycle' po]) evs.length hr
  rw [hr'.seen, hr.calls, ← g, hr.outs, hr.ins]
  simp [Src.wireEv]

end

/-! ### Examples -/

/-- The schedule of `exWireDrop`. -/
def exWireSource : List Spec.Src.WireEv :=
  [.call (.setOutput ⟨0, 1⟩ (.bit true)), .cycle [], .deliver, .call (.setOutput ⟨0, 1⟩ (.bit false)),
    .call (.setOutput ⟨0, 0⟩ (.bytes [1#8])), .failing [] [2#16], .cycle [], .deliver, .restart',
    .sample [4#16], .arrive, .cycle' []]

theorem exWireSource_small (evs : List Spec.Src.WireEv) : Spec.Src.LateWire.SmallImages true exRelay evs := by
  intro _ _ _ _ h
  cases h

theorem exRelaySource_ok : ∃ c, Src.ur20_fbc_mod_tcp.Coupler.new true exRelay = .ok c := ⟨_, rfl⟩

theorem exDiSource_ok : ∃ c, Src.ur20_fbc_mod_tcp.Coupler.new true exDiCfg = .ok c := ⟨_, rfl⟩

section

variable (ord : Nat → Imp.Orders) (fill : Nat → Nat → Byte) (c d : Src.ur20_fbc_mod_tcp.Coupler)
  (hc : Src.ur20_fbc_mod_tcp.Coupler.new true exRelay = .ok c)
  (hd : Src.ur20_fbc_mod_tcp.Coupler.new true exDiCfg = .ok d)

include hc hd

theorem exWireSource_same (n : Nat) :
    Src.SameWire ((Spec.Src.LateWire.start c d [0#16]).run true exRelay exDiCfg (LateWire.bitWire 1 2)
      ord fill c d 0 (exWireSource.take n)) (exWireDropRun n) := by
  obtain ⟨c', i1, n1, rfl, s1⟩ := Src.new_model hc
  obtain ⟨d', i2, n2, rfl, s2⟩ := Src.new_model hd
  obtain rfl := Res.ok.inj (n1.symm.trans exRelayCoupler_new)
  obtain rfl := Res.ok.inj (n2.symm.trans exDiCoupler_new)
  have e : exWireDrop.take n = (exWireSource.take n).map (Src.wireEv exRelayCoupler) := by
    rw [List.map_take]; rfl
  rw [exWireDropRun, e]
  exact Src.SameWire.run ord fill ⟨i1, rfl, s1⟩ ⟨i2, rfl, s2⟩ _ 0
    ⟨⟨i1, rfl, s1⟩, rfl, rfl, rfl, rfl, ⟨i2, rfl, s2⟩, rfl, rfl, rfl⟩

theorem exWireSource_seen :
    ((Spec.Src.LateWire.start c d [0#16]).run true exRelay exDiCfg (LateWire.bitWire 1 2)
      ord fill c d 0 exWireSource).seen = some ⟨[.setOutput ⟨0, 1⟩ (.bit true)], [2#16], [4#16]⟩ :=
  (exWireSource_same ord fill c d hc hd 12).seen.trans exWireDropRun_seen

/-- The second application sees the relay on. -/
example : ∃ ins vs, Src.ur20_fbc_mod_tcp.Coupler.inputs true
    ((Spec.Src.LateWire.start c d [0#16]).run true exRelay exDiCfg (LateWire.bitWire 1 2)
      ord fill c d 0 exWireSource).d = .ok ins ∧ ins[0]? = some vs ∧ vs[2]? = some (.bit true) := by
  obtain ⟨ins, vs, h0, h1, h2, -⟩ := C159_source_digital true exRelay exDiCfg ord fill c d hc hd 0
    (exRelay_disjoint 0) .UR20_4RO_CO_255 _ 0x8000#16 _ ⟨rfl, rfl, rfl, rfl⟩
    (by unfold DigitalOutput; decide) (by decide) (.inl (by decide)) 1 (by decide)
    0 .UR20_4DI_P _ _ 0x0000#16 ⟨rfl, rfl, rfl, rfl⟩ (.inl rfl) (by decide) 2 (by decide) [0#16]
    exWireSource (exWireSource_small _) _ (exWireSource_seen ord fill c d hc hd)
  exact ⟨ins, vs, h0, h1, h2 true rfl⟩

example := C159_source_order true exRelay exDiCfg ord fill c d hc hd (LateWire.bitWire 1 2) [0#16]
  exWireSource [.restart'] (exWireSource_small _) _ (exWireSource_seen ord fill c d hc hd)

/-- A round after the failing cycle. -/
example (ord' ord'' : Imp.Orders) (fill' fill'' : Nat → Byte) :=
  C159_source_arrives true exRelay exDiCfg ord fill c d hc hd (LateWire.bitWire 1 2) [0#16]
    (exWireSource.take 6) [] [2#16] ord' ord'' fill' fill''
    (by
      rw [(Src.same_next (exWireSource_same ord fill c d hc hd 6).c true _ _ _ _).1,
        (exWireSource_same ord fill c d hc hd 6).kept, exWireDropRun_round.1])
    [4#16] exWireDropRun_round.2.1 []
    (.inl (by
      obtain ⟨img, h⟩ := exWireDropRun_round.2.2
      exact ⟨img, by rw [(Src.same_next (exWireSource_same ord fill c d hc hd 6).d true _ _ _ _).1, h]⟩))

end

/-- The schedule of `exLateAnalog`, after a restart of the second application. -/
def exAnalogSource : List Spec.Src.WireEv :=
  [.restart', .call (.setOutput ⟨0, 0⟩ (.decimal32 (.fin (4110 / 1024)))), .cycle [], .cycle [],
    .sample [0#16, 45#16, 0#16, 0#16], .arrive, .cycle' [], .deliver,
    .sample [0#16, 5548#16, 0#16, 0#16], .arrive, .cycle' []]

/-- The hypothesis on `x` in the example below is met: the image is used. -/
example (ord : Nat → Imp.Orders) (fill : Nat → Nat → Byte) (c d : Src.ur20_fbc_mod_tcp.Coupler)
    (h : Src.ur20_fbc_mod_tcp.Coupler.new true exAo1Cfg = .ok c)
    (h' : Src.ur20_fbc_mod_tcp.Coupler.new true exAiCfg = .ok d) :
    ((Spec.Src.LateWire.start c d [45#16, 0#16, 0#16, 0#16]).run true exAo1Cfg exAiCfg exAnalogWire
      ord fill c d 0 exAnalogSource).seen.map (·.calls.length) = some 1 := by
  obtain ⟨c', i1, n1, rfl, s1⟩ := Src.new_model h
  obtain ⟨d', i2, n2, rfl, s2⟩ := Src.new_model h'
  have hr := Src.SameWire.run (oc := true) (cfg := exAo1Cfg) (cfg' := exAiCfg) (wired := exAnalogWire)
    ord fill ⟨i1, rfl, s1⟩ ⟨i2, rfl, s2⟩ exAnalogSource 0 (s := Spec.Src.LateWire.start _ _ _)
    (t := LateWire.start c' d' [45#16, 0#16, 0#16, 0#16])
    ⟨⟨i1, rfl, s1⟩, rfl, rfl, rfl, rfl, ⟨i2, rfl, s2⟩, rfl, rfl, rfl⟩
  rw [hr.seen]
  cases n1
  cases n2
  decide +kernel

example (ord : Nat → Imp.Orders) (fill : Nat → Nat → Byte) (c d : Src.ur20_fbc_mod_tcp.Coupler)
    (h : Src.ur20_fbc_mod_tcp.Coupler.new true exAo1Cfg = .ok c)
    (h' : Src.ur20_fbc_mod_tcp.Coupler.new true exAiCfg = .ok d) (x : Sampled) :=
  C159_source_analog true exAo1Cfg exAiCfg ord fill c d h h' exAnalogWire 0 (exAo1_disjoint 0) .UR20_4AO_UI_16
    _ 0x8000#16 _ ⟨rfl, rfl, rfl, rfl⟩ (by decide) (by decide) 0 (by decide) .mA0To20 .S7
    ⟨⟨_, rfl, rfl⟩, ⟨_, rfl, rfl⟩⟩ _ rfl 0 .UR20_4AI_UI_16 _ _ 0x0000#16 ⟨rfl, rfl, rfl, rfl⟩
    (by decide) (by decide) 1 (by decide) .mA0To20 .S7 ⟨⟨_, rfl, rfl⟩, ⟨_, rfl, rfl⟩⟩ _ rfl 0
    (by
      intro out pi hw w w' h1 h2
      have e : pi[1]? = out[0]? := by simpa [exAnalogWire] using hw
      have e1 : out[0]? = some w := h1
      have e2 : pi[1]? = some w' := h2
      rw [e, e1] at e2
      cases e2
      simp)
    [45#16, 0#16, 0#16, 0#16] 45#16 rfl exAnalogSource (fun _ _ _ _ h => by cases h) x
    (4110 / 1024) ⟨4110, -10, by norm_num, by norm_num, by norm_num, by norm_num⟩
    (by norm_num [exactRaw, fullScale])

end Ur20
