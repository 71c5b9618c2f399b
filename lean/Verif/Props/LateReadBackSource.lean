import Verif.Props.LateReadBack
import Verif.Props.LateShownSource

/-!
# C158 for the translated source: outputs() reads back what was set
-/

namespace Ur20

open Spec

open Src.ur20_fbc_mod_tcp (embed)

section

variable (oc : Bool) (cfg : CouplerConfig) (w : Wiring) (hw : w.modules ≠ [])
  (ord : Nat → Imp.Orders) (fill : Nat → Nat → Byte) (s : Spec.Src.LateNet) (h : s.Started oc cfg w)
  (evs : List LateStationEv)

include hw h

/-- C158 for the translated source, digital outputs and counters. -/
theorem C158_source_values (hu : LateStation.SmallImages oc cfg evs)
    (j : Nat) (hdis : OutputsKept cfg j)
    (t : ModuleType) (par : List Word) (o i : Word) (hcfg : ConfiguredAt cfg j t par o i)
    (ht : t ≠ .UR20_1COM_232_485_422) (hno : o ≠ noOffset)
    (hal : o.toNat % 16 = 0 ∨ outputBytes t par = 1) (ch : Nat) (hch : ch < outputChannels t)
    (img : List Word) :
    let r := (Spec.Src.LateStation.start s).frun oc cfg w ord fill s.c 0 evs
    (Spec.Src.call oc r.net.c (ord evs.length) (fill evs.length)
      (.next r.net.inp r.net.kept)).2 = .next (.ok img) →
    ∃ out vs v, Src.ur20_fbc_mod_tcp.Coupler.outputs oc (r.fstep oc cfg w (ord evs.length) (fill evs.length) s.c
        (.ev .cycle)).net.c = .ok out ∧ out[j]? = some vs ∧ vs[ch]? = some v ∧
      (DigitalOutput t → ∀ b, lastSet ⟨j, ch⟩ r.stamps.kept = some (.bit b) → v = .bit b) ∧
      (DigitalOutput t → lastSet ⟨j, ch⟩ r.stamps.kept = none → ∀ b, bitAt s.out (outBit o + ch) = some b →
        v = .bit b) ∧
      (t = .UR20_2FCNT_100 → ∀ x, lastSet ⟨j, ch⟩ r.stamps.kept = some (.fcntOut x) →
        v = .fcntOut ⟨x.duration / 1000 * 1000, x.command⟩) := by
  intro r hn
  obtain ⟨d, hd, hs'⟩ := Src.late_started h
  have hr : Src.SameStation r _ := Src.SameStation.frun (oc := oc) (cfg := cfg) hw ord fill hs'.c evs 0
    (s := Spec.Src.LateStation.start s) (t := LateStation.start d) ⟨hs', rfl⟩
  have hr' := hr.fstep oc cfg w hw (ord evs.length) (fill evs.length) hs'.c (.ev .cycle)
  rw [(Src.same_next hr.net.c oc _ _ _ _).1, hr.net.inp, hr.net.kept] at hn
  obtain ⟨vs, v, e1, e2, e3⟩ := C158_values oc cfg w hw d hd evs hu j hdis t par o i hcfg ht hno hal ch hch
    img (by injection hn)
  refine ⟨_, vs, v, (Src.same_shown hr'.net.c oc).2, e1, e2, ?_⟩
  rw [hr.stamps, hs'.out]
  exact e3

/-- C158 for the translated source, progress. -/
theorem C158_source_next (hu : LateStation.SmallImages oc cfg evs)
    (j : Nat) (hdis : OutputsKept cfg j)
    (t : ModuleType) (par : List Word) (o i : Word) (hcfg : ConfiguredAt cfg j t par o i)
    (ht : t ≠ .UR20_1COM_232_485_422) (hno : o ≠ noOffset)
    (hal : o.toNat % 16 = 0 ∨ outputBytes t par = 1) (ch : Nat) (hch : ch < outputChannels t)
    (img img' : List Word) :
    let r := (Spec.Src.LateStation.start s).frun oc cfg w ord fill s.c 0 evs
    (Spec.Src.call oc r.net.c (ord evs.length) (fill evs.length)
      (.next r.net.inp r.net.kept)).2 = .next (.ok img) →
    let r' := r.fstep oc cfg w (ord evs.length) (fill evs.length) s.c (.ev .cycle)
    (Spec.Src.call oc r'.net.c (ord (evs.length + 1)) (fill (evs.length + 1))
      (.next r'.net.inp r'.net.kept)).2 = .next (.ok img') →
    ∃ out vs v, Src.ur20_fbc_mod_tcp.Coupler.outputs oc (r'.fstep oc cfg w (ord (evs.length + 1))
        (fill (evs.length + 1)) s.c (.ev .cycle)).net.c = .ok out ∧ out[j]? = some vs ∧ vs[ch]? = some v ∧
      (DigitalOutput t → ∀ b, lastSet ⟨j, ch⟩ r.stamps.calls = some (.bit b) → v = .bit b) ∧
      (t = .UR20_2FCNT_100 → ∀ x, lastSet ⟨j, ch⟩ r.stamps.calls = some (.fcntOut x) →
        v = .fcntOut ⟨x.duration / 1000 * 1000, x.command⟩) := by
  intro r hn r' hn'
  obtain ⟨d, hd, hs'⟩ := Src.late_started h
  have hr : Src.SameStation r _ := Src.SameStation.frun (oc := oc) (cfg := cfg) hw ord fill hs'.c evs 0
    (s := Spec.Src.LateStation.start s) (t := LateStation.start d) ⟨hs', rfl⟩
  have hr' : Src.SameStation r' _ :=
    hr.fstep oc cfg w hw (ord evs.length) (fill evs.length) hs'.c (.ev .cycle)
  have hr2 := hr'.fstep oc cfg w hw (ord (evs.length + 1)) (fill (evs.length + 1)) hs'.c (.ev .cycle)
  rw [(Src.same_next hr.net.c oc _ _ _ _).1, hr.net.inp, hr.net.kept] at hn
  rw [(Src.same_next hr'.net.c oc _ _ _ _).1, hr'.net.inp, hr'.net.kept] at hn'
  obtain ⟨vs, v, e1, e2, e3⟩ := C158_next oc cfg w hw d hd evs hu j hdis t par o i hcfg ht hno hal ch hch
    img img' (by injection hn) (by injection hn')
  refine ⟨_, vs, v, (Src.same_shown hr2.net.c oc).2, e1, e2, ?_⟩
  rw [hr.stamps]
  exact e3

/-- C158 for the translated source, analog outputs. -/
theorem C158_source_analog (hu : LateStation.SmallImages oc cfg evs)
    (j : Nat) (hdis : OutputsKept cfg j)
    (t : ModuleType) (par : List Word) (o i : Word) (hcfg : ConfiguredAt cfg j t par o i)
    (hno : o ≠ noOffset) (hal : o.toNat % 16 = 0) (ch : Nat) (hch : ch < 4)
    (r : AnalogUIRange) (f : DataFormat) (hf : OutputFormat t par ch r f)
    (sc : ℚ × ℚ) (hs : uiScale r = some sc)
    (w0 : Word) (hw0 : s.out[outBit o / 16 + ch]? = some w0) (img : List Word)
    (q : ℚ) (hq : Single q) (hrange : |exactRaw sc f q| ≤ 32767) :
    let st := (Spec.Src.LateStation.start s).frun oc cfg w ord fill s.c 0 evs
    (Spec.Src.call oc st.net.c (ord evs.length) (fill evs.length)
      (.next st.net.inp st.net.kept)).2 = .next (.ok img) →
    lastSet ⟨j, ch⟩ st.stamps.kept = some (.decimal32 (.fin q)) →
    ∃ out vs y, Src.ur20_fbc_mod_tcp.Coupler.outputs oc (st.fstep oc cfg w (ord evs.length) (fill evs.length) s.c
        (.ev .cycle)).net.c = .ok out ∧ out[j]? = some vs ∧
      vs[ch]? = some (.decimal32 (.fin y)) ∧
      |y - q| ≤ (17 / 16 + maxDrift r + 1 / 128) * rawUnit sc f := by
  intro st hn hl
  obtain ⟨d, hd, hs'⟩ := Src.late_started h
  have hr : Src.SameStation st _ := Src.SameStation.frun (oc := oc) (cfg := cfg) hw ord fill hs'.c evs 0
    (s := Spec.Src.LateStation.start s) (t := LateStation.start d) ⟨hs', rfl⟩
  have hr' := hr.fstep oc cfg w hw (ord evs.length) (fill evs.length) hs'.c (.ev .cycle)
  rw [(Src.same_next hr.net.c oc _ _ _ _).1, hr.net.inp, hr.net.kept] at hn
  rw [hr.stamps] at hl
  obtain ⟨vs, y, e1, e2⟩ := C158_analog oc cfg w hw d hd evs hu j hdis t par o i hcfg hno hal ch hch r f hf
    sc hs w0 (by rw [← hs'.out]; exact hw0) img q hq hrange (by injection hn) hl
  exact ⟨_, vs, y, (Src.same_shown hr'.net.c oc).2, e1, e2⟩

end

/-! ### Examples -/

section

variable (ord : Nat → Imp.Orders) (fill : Nat → Nat → Byte)

/-- The first output was set before the previous successful cycle. -/
example : ∃ out vs, Src.ur20_fbc_mod_tcp.Coupler.outputs true
    (((Spec.Src.LateStation.start exLateSource).frun true exDuo exWires ord fill exLateSource.c 0
      exDropEvs).fstep true exDuo exWires (ord exDropEvs.length) (fill exDropEvs.length) exLateSource.c
      (.ev .cycle)).net.c = .ok out ∧ out[0]? = some vs ∧ vs[0]? = some (.bit true) := by
  have hr := exDropSource_same ord fill
  obtain ⟨g, g1, -⟩ := exDropRun_cycle
  cases hn : (exDropRun.net.c.next true exDropRun.net.inp exDropRun.net.kept).2 with
  | ok img =>
    obtain ⟨out, vs, v, e0, e1, e2, e3, -⟩ := C158_source_values true exDuo exWires (by decide) ord fill
      exLateSource exLateSource_started exDropEvs exDropEvs_small 0 exDuo_kept .UR20_4DO_P
      (List.replicate 4 0) 0x8000#16 noOffset ⟨rfl, rfl, rfl, rfl⟩ (by decide) (by decide)
      (.inl (by decide)) 0 (by decide) img (by
        rw [(Src.same_next hr.net.c true _ _ _ _).1, hr.net.inp, hr.net.kept, hn])
    exact ⟨out, vs, e0, e1, e3 (.inl rfl) true (by rw [hr.stamps]; exact g1) ▸ e2⟩
  | err e => rw [hn] at g; cases g
  | panic => rw [hn] at g; cases g

/-- The fourth output is shown on one cycle later. -/
example : ∃ out vs, Src.ur20_fbc_mod_tcp.Coupler.outputs true
    ((((Spec.Src.LateStation.start exLateSource).frun true exDuo exWires ord fill exLateSource.c 0
      exDropEvs).fstep true exDuo exWires (ord exDropEvs.length) (fill exDropEvs.length) exLateSource.c
      (.ev .cycle)).fstep true exDuo exWires (ord (exDropEvs.length + 1)) (fill (exDropEvs.length + 1))
      exLateSource.c (.ev .cycle)).net.c = .ok out ∧ out[0]? = some vs ∧ vs[3]? = some (.bit true) := by
  have hr := exDropSource_same ord fill
  have hr' := hr.fstep true exDuo exWires (by decide) (ord exDropEvs.length) (fill exDropEvs.length)
    exLateSource_same.c (.ev .cycle)
  obtain ⟨g, -⟩ := exDropRun_cycle
  obtain ⟨g', g1⟩ := exDropRun_twice
  cases hn : (exDropRun.net.c.next true exDropRun.net.inp exDropRun.net.kept).2 with
  | ok img =>
    cases hn' : ((exDropRun.fstep true exDuo exWires exLateNet.c (.ev .cycle)).net.c.next true
      (exDropRun.fstep true exDuo exWires exLateNet.c (.ev .cycle)).net.inp
      (exDropRun.fstep true exDuo exWires exLateNet.c (.ev .cycle)).net.kept).2 with
    | ok img' =>
      obtain ⟨out, vs, v, e0, e1, e2, e3, -⟩ := C158_source_next true exDuo exWires (by decide) ord fill
        exLateSource exLateSource_started exDropEvs exDropEvs_small 0 exDuo_kept .UR20_4DO_P
        (List.replicate 4 0) 0x8000#16 noOffset ⟨rfl, rfl, rfl, rfl⟩ (by decide) (by decide)
        (.inl (by decide)) 3 (by decide) img img'
        (by rw [(Src.same_next hr.net.c true _ _ _ _).1, hr.net.inp, hr.net.kept, hn])
        (by rw [(Src.same_next hr'.net.c true _ _ _ _).1, hr'.net.inp, hr'.net.kept, hn'])
      exact ⟨out, vs, e0, e1, e3 (.inl rfl) true (by rw [hr.stamps]; exact g1) ▸ e2⟩
    | err e => rw [hn'] at g'; cases g'
    | panic => rw [hn'] at g'; cases g'
  | err e => rw [hn] at g; cases g
  | panic => rw [hn] at g; cases g

/-- The current that was set is read back up to a few steps. -/
example (c : Src.ur20_fbc_mod_tcp.Coupler) (h : Src.ur20_fbc_mod_tcp.Coupler.new true exAoCom = .ok c) :
    ∃ out vs y, Src.ur20_fbc_mod_tcp.Coupler.outputs true
      (((Spec.Src.LateStation.start (exAoComSource c exAoComCoupler)).frun true exAoCom exAoComWires ord fill
        c 0 exAoComEvs).fstep true exAoCom exAoComWires (ord exAoComEvs.length) (fill exAoComEvs.length) c
        (.ev .cycle)).net.c = .ok out ∧ out[0]? = some vs ∧ vs[0]? = some (.decimal32 (.fin y)) ∧
      |y - 4110 / 1024| ≤ (17 / 16 + maxDrift .mA0To20 + 1 / 128) * rawUnit (0, 20) .S7 := by
  have hst := exAoComSource_started h exAoComCoupler_new
  obtain ⟨d, hd, hs⟩ := Src.late_started hst
  have hc : d.c = exAoComCoupler := by
    have := hd.c
    rw [exAoComCoupler_new] at this
    exact (Res.ok.inj this).symm
  have hc' : ∃ i, c = embed i ∧ Imp.SameC i exAoComCoupler := by
    rw [← hc]
    exact hs.c
  have hr : Src.SameStation ((Spec.Src.LateStation.start (exAoComSource c exAoComCoupler)).frun true exAoCom
      exAoComWires ord fill (exAoComSource c exAoComCoupler).c 0 exAoComEvs) exAoComRun :=
    Src.SameStation.frun (by decide) ord fill hc' exAoComEvs 0
      ⟨⟨hc', rfl, rfl, rfl, rfl, rfl, rfl, rfl⟩, rfl⟩
  obtain ⟨g, g1⟩ := exAoComRun_cycle
  cases hn : (exAoComRun.net.c.next true exAoComRun.net.inp exAoComRun.net.kept).2 with
  | ok img =>
    exact C158_source_analog true exAoCom exAoComWires (by decide) ord fill
      (exAoComSource c exAoComCoupler) hst exAoComEvs (fun _ _ _ _ h => by cases h) 0 (exAoCom_outputs 0)
      .UR20_4AO_UI_16 _ 0x8000#16 _ ⟨rfl, rfl, rfl, rfl⟩ (by decide) (by decide) 0 (by decide) .mA0To20 .S7
      ⟨⟨_, rfl, rfl⟩, ⟨_, rfl, rfl⟩⟩ (0, 20) rfl 45#16 rfl img (4110 / 1024)
      ⟨4110, -10, by decide, by decide, by decide, by norm_num⟩
      (by norm_num [exactRaw, fullScale, abs_le])
      ((Src.same_next hr.net.c true _ _ _ _).1.trans (by rw [hr.net.inp, hr.net.kept, hn]))
      (by rw [show _ = exAoComRun.stamps from hr.stamps]; exact g1)
  | err e => rw [hn] at g; cases g
  | panic => rw [hn] at g; cases g

end

end Ur20
