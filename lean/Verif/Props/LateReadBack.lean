import Verif.Props.LateShown

/-!
# C158: outputs() reads back what was set, with failing cycles and late and lost images
-/

namespace Ur20

open Spec Coupler

/-- The image of the outputs of an analog channel that is shown. -/
theorem shown_output {t : ModuleType} {par img : List Word} {pos ch : Nat} {v : ChannelValue}
    (h : OutputShown t par img pos ch v) {r : AnalogUIRange} {f : DataFormat}
    (hf : OutputFormat t par ch r f) :
    ∃ w, img[pos / 16 + ch]? = some w ∧ AnalogReading (r, f) w v := by
  cases t
  case UR20_4AO_UI_16 =>
    obtain ⟨w, f', r', h1, h2, h3, h4⟩ := h
    cases paramIs_format h2 hf.1
    cases paramIs_range h3 hf.2
    exact ⟨w, h1, h4⟩
  case UR20_4AO_UI_16_DIAG =>
    obtain ⟨w, f', r', h1, h2, h3, h4⟩ := h
    cases paramIs_format h2 hf.1
    cases paramIs_range h3 hf.2
    exact ⟨w, h1, h4⟩
  all_goals exact hf.elim

theorem counterPreset_unique {img : List Word} {p ch us us' : Nat} {ctl ctl' : Word}
    (h : CounterPreset img p ch us ctl) (h' : CounterPreset img p ch us' ctl') : us = us' ∧ ctl = ctl' := by
  obtain ⟨hi, lo, a1, a2, rfl, a3⟩ := h
  obtain ⟨hi', lo', b1, b2, rfl, b3⟩ := h'
  rw [a1] at b1
  rw [a2] at b2
  rw [a3] at b3
  cases b1; cases b2; cases b3
  exact ⟨rfl, rfl⟩

/-- A settled digital output or counter is read back. -/
theorem shown_settled {t : ModuleType} {par img : List Word} {pos ch : Nat} {v x : ChannelValue}
    (h : OutputShown t par img pos ch v) (hs : Settled t par img pos ch x) :
    (DigitalOutput t → ∀ b, x = .bit b → v = .bit b) ∧
    (t = .UR20_2FCNT_100 → ∀ y, x = .fcntOut y → v = .fcntOut ⟨y.duration / 1000 * 1000, y.command⟩) := by
  constructor
  · rintro (rfl | rfl | rfl | rfl | rfl) b rfl <;>
    · obtain ⟨b1, h1, rfl⟩ := h
      obtain ⟨b2, h2, h3⟩ := hs
      rw [h1] at h2
      cases h2
      rcases h3 with h3 | ⟨h3, -⟩
      · exact h3.symm
      · cases h3
  · rintro rfl y rfl
    obtain ⟨us, ctl, h1, rfl⟩ := h
    obtain ⟨us', ctl', h2, h3⟩ := hs
    obtain ⟨rfl, rfl⟩ := counterPreset_unique h1 h2
    rcases h3 with ⟨x, hx, rfl, rfl⟩ | ⟨hx, -⟩
    · cases hx
      rw [commandIn_controlOf]
    · cases hx

theorem Spec.LateShown.run_station (oc : Bool) (cfg : CouplerConfig) (w : Wiring) (c : Coupler)
    (evs : List LateStationEv) (s : LateShown) :
    (s.run oc cfg w c evs).station = s.station.frun oc cfg w c evs := by
  induction evs generalizing s with
  | nil => rfl
  | cons e evs ih => exact ih (s.step oc cfg w c e)

section

variable (oc : Bool) (cfg : CouplerConfig) (w : Wiring) (hw : w.modules ≠ []) (s : LateNet)
  (h : s.Started cfg w) (evs : List LateStationEv)

include hw h

/-- What a successful cycle shows of the outputs. -/
theorem LateStation.cycle_shown (hu : LateStation.SmallImages oc cfg evs) (img : List Word) :
    let r := (LateStation.start s).frun oc cfg w s.c evs
    (r.net.c.next oc r.net.inp r.net.kept).2 = .ok img →
    ShowsOutputs cfg (r.fstep oc cfg w s.c (.ev .cycle)).net.c.outputs r.net.kept := by
  have e := LateShown.run_station oc cfg w s.c evs (LateShown.start s)
  have key := (C157_cycle oc cfg w hw s h evs hu img)
  simp only [LateShown.step] at key
  rw [e] at key
  exact fun hn => (key hn).2.1

/-- C158, digital outputs and counters: whatever is late or lost and whatever cycles fail, after a successful
cycle `outputs()` shows for a channel the value of the last `set_output` of the calls that the image kept
by the application stands for, that is of those made before the previous successful cycle that no failing
cycle has discarded. The time of a counter is rounded down to microseconds. -/
theorem C158_values (hu : LateStation.SmallImages oc cfg evs)
    (j : Nat) (hdis : OutputsKept cfg j)
    (t : ModuleType) (par : List Word) (o i : Word) (hcfg : ConfiguredAt cfg j t par o i)
    (ht : t ≠ .UR20_1COM_232_485_422) (hno : o ≠ noOffset)
    (hal : o.toNat % 16 = 0 ∨ outputBytes t par = 1) (ch : Nat) (hch : ch < outputChannels t)
    (img : List Word) :
    let r := (LateStation.start s).frun oc cfg w s.c evs
    (r.net.c.next oc r.net.inp r.net.kept).2 = .ok img →
    ∃ vs v, (r.fstep oc cfg w s.c (.ev .cycle)).net.c.outputs[j]? = some vs ∧ vs[ch]? = some v ∧
      (DigitalOutput t → ∀ b, lastSet ⟨j, ch⟩ r.stamps.kept = some (.bit b) → v = .bit b) ∧
      (DigitalOutput t → lastSet ⟨j, ch⟩ r.stamps.kept = none → ∀ b, bitAt s.out (outBit o + ch) = some b →
        v = .bit b) ∧
      (t = .UR20_2FCNT_100 → ∀ x, lastSet ⟨j, ch⟩ r.stamps.kept = some (.fcntOut x) →
        v = .fcntOut ⟨x.duration / 1000 * 1000, x.command⟩) := by
  intro r hn
  obtain ⟨vs, e1, -, e2⟩ := (LateStation.cycle_shown oc cfg w hw s h evs hu img hn j t par o i hcfg ht).2
    hno hal
  obtain ⟨v, e3, e4⟩ := e2 ch hch
  obtain ⟨k1, k2⟩ := LateStation.images_values oc cfg w hw s h evs hu j hdis t par o i hcfg ht hno hal ch
    hch (r.stamps.kept, r.net.kept) (by simp [LateOut.images, LateStation.outputs, r])
  refine ⟨vs, v, e1, e3, fun hd b hb => (shown_settled e4 (k1 _ hb)).1 hd b rfl, fun hd hb b hs => ?_,
    fun hc x hx => (shown_settled e4 (k1 _ hx)).2 hc x rfl⟩
  refine (shown_settled e4 (k2 hb (.bit b) ?_)).1 hd b rfl
  rcases hd with rfl | rfl | rfl | rfl | rfl <;> exact ⟨b, hs, .inl rfl⟩

/-- C158, progress: what was set before a successful cycle, and was not discarded by a failing one, is shown
by `outputs()` after the next cycle if that succeeds, too. -/
theorem C158_next (hu : LateStation.SmallImages oc cfg evs)
    (j : Nat) (hdis : OutputsKept cfg j)
    (t : ModuleType) (par : List Word) (o i : Word) (hcfg : ConfiguredAt cfg j t par o i)
    (ht : t ≠ .UR20_1COM_232_485_422) (hno : o ≠ noOffset)
    (hal : o.toNat % 16 = 0 ∨ outputBytes t par = 1) (ch : Nat) (hch : ch < outputChannels t)
    (img img' : List Word) :
    let r := (LateStation.start s).frun oc cfg w s.c evs
    (r.net.c.next oc r.net.inp r.net.kept).2 = .ok img →
    let r' := r.fstep oc cfg w s.c (.ev .cycle)
    (r'.net.c.next oc r'.net.inp r'.net.kept).2 = .ok img' →
    ∃ vs v, (r'.fstep oc cfg w s.c (.ev .cycle)).net.c.outputs[j]? = some vs ∧ vs[ch]? = some v ∧
      (DigitalOutput t → ∀ b, lastSet ⟨j, ch⟩ r.stamps.calls = some (.bit b) → v = .bit b) ∧
      (t = .UR20_2FCNT_100 → ∀ x, lastSet ⟨j, ch⟩ r.stamps.calls = some (.fcntOut x) →
        v = .fcntOut ⟨x.duration / 1000 * 1000, x.command⟩) := by
  intro r hn r' hn'
  have hu' : LateStation.SmallImages oc cfg (evs ++ [.ev .cycle]) := fun pi po hm =>
    hu pi po (by simpa using hm)
  have e : (LateStation.start s).frun oc cfg w s.c (evs ++ [.ev .cycle]) = r' := by
    simp only [LateStation.frun, List.foldl_append, List.foldl_cons, List.foldl_nil, r', r]
  have hk : r'.stamps.kept = r.stamps.calls := by
    rcases hx : r.net.c.next oc r.net.inp r.net.kept with ⟨c', x⟩
    rw [hx] at hn
    subst hn
    simp [r', LateStation.fstep, LateStation.step, LateNet.step, Stamps.step, hx]
  have key := C158_values oc cfg w hw s h (evs ++ [.ev .cycle]) hu' j hdis t par o i hcfg ht hno hal ch hch
    img'
  rw [e] at key
  obtain ⟨vs, v, e1, e2, e3, -, e4⟩ := key hn'
  rw [hk] at e3 e4
  exact ⟨vs, v, e1, e2, e3, e4⟩

/-- C158, analog outputs: the value shown differs from the value that was set by at most 17/16 + 1/128
steps plus the 2 or 5 steps of C107. -/
theorem C158_analog (hu : LateStation.SmallImages oc cfg evs)
    (j : Nat) (hdis : OutputsKept cfg j)
    (t : ModuleType) (par : List Word) (o i : Word) (hcfg : ConfiguredAt cfg j t par o i)
    (hno : o ≠ noOffset) (hal : o.toNat % 16 = 0) (ch : Nat) (hch : ch < 4)
    (r : AnalogUIRange) (f : DataFormat) (hf : OutputFormat t par ch r f)
    (sc : ℚ × ℚ) (hs : uiScale r = some sc)
    (w0 : Word) (hw0 : s.out[outBit o / 16 + ch]? = some w0) (img : List Word)
    (q : ℚ) (hq : Single q) (hrange : |exactRaw sc f q| ≤ 32767) :
    let st := (LateStation.start s).frun oc cfg w s.c evs
    (st.net.c.next oc st.net.inp st.net.kept).2 = .ok img →
    lastSet ⟨j, ch⟩ st.stamps.kept = some (.decimal32 (.fin q)) →
    ∃ vs y, (st.fstep oc cfg w s.c (.ev .cycle)).net.c.outputs[j]? = some vs ∧
      vs[ch]? = some (.decimal32 (.fin y)) ∧
      |y - q| ≤ (17 / 16 + maxDrift r + 1 / 128) * rawUnit sc f := by
  intro st hn hl
  obtain ⟨ht, hch'⟩ := analog_channels hf hch
  obtain ⟨vs, e1, -, e2⟩ := (LateStation.cycle_shown oc cfg w hw s h evs hu img hn j t par o i hcfg ht).2
    hno (.inl hal)
  obtain ⟨v, e3, e4⟩ := e2 ch hch'
  obtain ⟨w', g1, g2⟩ := shown_output e4 hf
  obtain ⟨y, rfl, g3⟩ := reading_close hs g2
  refine ⟨vs, y, e1, e3, ?_⟩
  have hen : r ≠ .Disabled := by rintro rfl; cases hs
  have hval := (LateStation.images_analog oc cfg w hw s h evs hu j hdis t par o i hcfg hno hal ch hch r f hf
    w0 hw0 (st.stamps.kept, st.net.kept) (by simp [LateOut.images, LateStation.outputs, st])).bounds hen
  obtain ⟨w, e, w1, he, w2⟩ := hval.1 _ hl
  have hww : w' = w := by
    have g1' : st.net.kept[outBit o / 16 + ch]? = some w' := g1
    have w1' : st.net.kept[outBit o / 16 + ch]? = some w := w1
    rw [g1'] at w1'
    exact Option.some.inj w1'
  subst hww
  have he' : EncodedAs (r, f) (.fin q) e := by
    rcases he with ⟨x', hx', he⟩ | ⟨h, -⟩
    · cases hx'; exact he
    · cases h
  have hs1 : 0 < sc.2 - sc.1 := by
    clear hen hval he' w2 hf g2
    cases r <;> simp only [uiScale] at hs <;> cases hs <;> norm_num
  have hfs : 0 < fullScale f := by cases f <;> norm_num [fullScale]
  have hst0 : 0 < rawUnit sc f := div_pos hs1 hfs
  have a1 : |physical sc f w'.toInt - q| ≤ (17 / 16 + maxDrift r) * rawUnit sc f := by
    simp only [EncodedAs, hs] at he'
    obtain ⟨-, -, he'⟩ := he'.2.2.2 q rfl hq
    obtain ⟨h1, -⟩ := he' (by linarith [(abs_le.1 hrange).1]) (by linarith [(abs_le.1 hrange).2])
    have e0 : physical sc f w'.toInt - q = ((w'.toInt : ℚ) - exactRaw sc f q) * rawUnit sc f := by
      simp only [physical, exactRaw, rawUnit]
      have := hfs.ne'
      have := hs1.ne'
      field_simp
      ring
    rw [e0, abs_mul, abs_of_pos hst0]
    refine mul_le_mul_of_nonneg_right ?_ hst0.le
    have w3 : |(w'.toInt : ℚ) - e| ≤ maxDrift r := by exact_mod_cast w2
    rw [abs_lt] at h1
    rw [abs_le] at w3 ⊢
    constructor <;> linarith
  have e5 : (17 / 16 + maxDrift r + 1 / 128) * rawUnit sc f =
      (17 / 16 + maxDrift r) * rawUnit sc f + rawUnit sc f / 128 := by ring
  rw [e5]
  rw [abs_le] at a1 g3 ⊢
  constructor <;> linarith

end

/-! ### Examples -/

/-- After the failing cycle of `exDropRun` a cycle succeeds; the image it decodes stands for the first of
the calls, while the last one is pending. -/
theorem exDropRun_cycle :
    ((exDropRun.net.c.next true exDropRun.net.inp exDropRun.net.kept).2.map (·[0]?)) = .ok (some 9#16) ∧
    lastSet ⟨0, 0⟩ exDropRun.stamps.kept = some (.bit true) ∧
    lastSet ⟨0, 3⟩ exDropRun.stamps.kept = none ∧ bitAt exLateNet.out 3 = some false := by
  unfold exDropRun
  rw [exDropEvs_run]
  decide +kernel

/-- So `outputs()` shows the first output on and the fourth one off. -/
example : ∃ vs, (exDropRun.fstep true exDuo exWires exLateNet.c (.ev .cycle)).net.c.outputs[0]? = some vs ∧
    vs[0]? = some (.bit true) ∧ vs[3]? = some (.bit false) := by
  obtain ⟨g, g1, g2, g3⟩ := exDropRun_cycle
  cases hn : (exDropRun.net.c.next true exDropRun.net.inp exDropRun.net.kept).2 with
  | ok img =>
    have key := fun ch hch => C158_values true exDuo exWires (by decide) exLateNet exLateNet_started
      exDropEvs exDropEvs_small 0 exDuo_kept .UR20_4DO_P (List.replicate 4 0) 0x8000#16 noOffset
      ⟨rfl, rfl, rfl, rfl⟩ (by decide) (by decide) (.inl (by decide)) ch hch img hn
    obtain ⟨vs, v, e1, e2, e3, -, -⟩ := key 0 (by decide)
    obtain ⟨vs', v', f1, f2, -, f3, -⟩ := key 3 (by decide)
    rw [e1] at f1
    cases f1
    exact ⟨vs, e1, e3 (.inl rfl) _ g1 ▸ e2, f3 (.inl rfl) g2 _ g3 ▸ f2⟩
  | err e => rw [hn] at g; cases g
  | panic => rw [hn] at g; cases g

theorem exDropRun_twice :
    (((exDropRun.fstep true exDuo exWires exLateNet.c (.ev .cycle)).net.c.next true
      (exDropRun.fstep true exDuo exWires exLateNet.c (.ev .cycle)).net.inp
      (exDropRun.fstep true exDuo exWires exLateNet.c (.ev .cycle)).net.kept).2.map (·[0]?)) =
        .ok (some 9#16) ∧
    lastSet ⟨0, 3⟩ exDropRun.stamps.calls = some (.bit true) := by
  unfold exDropRun
  rw [exDropEvs_run]
  decide +kernel

/-- The fourth output is shown on one cycle later. -/
example : ∃ vs, ((exDropRun.fstep true exDuo exWires exLateNet.c (.ev .cycle)).fstep true exDuo exWires
    exLateNet.c (.ev .cycle)).net.c.outputs[0]? = some vs ∧ vs[3]? = some (.bit true) := by
  obtain ⟨g, -⟩ := exDropRun_cycle
  obtain ⟨g', g1⟩ := exDropRun_twice
  cases hn : (exDropRun.net.c.next true exDropRun.net.inp exDropRun.net.kept).2 with
  | ok img =>
    cases hn' : ((exDropRun.fstep true exDuo exWires exLateNet.c (.ev .cycle)).net.c.next true
      (exDropRun.fstep true exDuo exWires exLateNet.c (.ev .cycle)).net.inp
      (exDropRun.fstep true exDuo exWires exLateNet.c (.ev .cycle)).net.kept).2 with
    | ok img' =>
      obtain ⟨vs, v, e1, e2, e3, -⟩ := C158_next true exDuo exWires (by decide) exLateNet exLateNet_started
        exDropEvs exDropEvs_small 0 exDuo_kept .UR20_4DO_P (List.replicate 4 0) 0x8000#16 noOffset
        ⟨rfl, rfl, rfl, rfl⟩ (by decide) (by decide) (.inl (by decide)) 3 (by decide) img img' hn hn'
      exact ⟨vs, e1, e3 (.inl rfl) _ g1 ▸ e2⟩
    | err e => rw [hn'] at g'; cases g'
    | panic => rw [hn'] at g'; cases g'
  | err e => rw [hn] at g; cases g
  | panic => rw [hn] at g; cases g

def exAoComCoupler : Coupler :=
  match Coupler.new exAoCom with
  | .ok c => c
  | _ => initial exAoCom []

theorem exAoComCoupler_new : Coupler.new exAoCom = .ok exAoComCoupler := rfl

noncomputable def exAoComRun : LateStation :=
  (LateStation.start (exAoComNet exAoComCoupler)).frun true exAoCom exAoComWires exAoComCoupler exAoComEvs

theorem exAoComRun_cycle :
    ((exAoComRun.net.c.next true exAoComRun.net.inp exAoComRun.net.kept).2.map (·.length)) = .ok 8 ∧
    lastSet ⟨0, 0⟩ exAoComRun.stamps.kept = some (.decimal32 (.fin (4110 / 1024))) := by
  unfold exAoComRun
  rw [LateStation.frun_plain _ _ _ _ _ (by simp [exAoComEvs])]
  decide +kernel

/-- The current that was set is read back up to a few steps. -/
example : ∃ vs y, (exAoComRun.fstep true exAoCom exAoComWires exAoComCoupler
    (.ev .cycle)).net.c.outputs[0]? = some vs ∧ vs[0]? = some (.decimal32 (.fin y)) ∧
    |y - 4110 / 1024| ≤ (17 / 16 + maxDrift .mA0To20 + 1 / 128) * rawUnit (0, 20) .S7 := by
  obtain ⟨g, g1⟩ := exAoComRun_cycle
  cases hn : (exAoComRun.net.c.next true exAoComRun.net.inp exAoComRun.net.kept).2 with
  | ok img =>
    exact C158_analog true exAoCom exAoComWires (by decide) (exAoComNet exAoComCoupler)
      (exAoComNet_started exAoComCoupler_new) exAoComEvs (fun _ _ _ _ h => by cases h) 0 (exAoCom_outputs 0)
      .UR20_4AO_UI_16 _ 0x8000#16 _ ⟨rfl, rfl, rfl, rfl⟩ (by decide) (by decide) 0 (by decide) .mA0To20 .S7
      ⟨⟨_, rfl, rfl⟩, ⟨_, rfl, rfl⟩⟩ (0, 20) rfl 45#16 rfl img (4110 / 1024)
      ⟨4110, -10, by decide, by decide, by decide, by norm_num⟩
      (by norm_num [exactRaw, fullScale, abs_le]) hn g1
  | err e => rw [hn] at g; cases g
  | panic => rw [hn] at g; cases g

end Ur20
