import Verif.Spec.LateDropSource
import Verif.Props.LateDrop
import Verif.Props.LateStationSource

/-!
# C156 for the translated source: the values of all outputs with failing cycles and late and lost images
-/

namespace Ur20

open Spec

open Src.ur20_fbc_mod_tcp (embed)

open scoped List

namespace Src

theorem SameStation.fstep {s : Spec.Src.LateStation} {t : Spec.LateStation} (h : SameStation s t)
    (oc : Bool) (cfg : CouplerConfig) (w : Wiring) (hw : w.modules ≠ []) (ord : Imp.Orders)
    (fill : Nat → Byte) {c d} (hc : ∃ i, c = embed i ∧ Imp.SameC i d) (e : LateStationEv) :
    SameStation (s.fstep oc cfg w ord fill c e) (t.fstep oc cfg w d e) := by
  cases e with
  | restart pi => exact h.step oc w hw ord fill hc (.restart pi)
  | set j v => exact h.step oc w hw ord fill hc (.set j v)
  | ev e =>
    cases e with
    | failing pi po =>
      refine ⟨h.net.step oc w hw ord fill (.failing pi po), ?_⟩
      obtain ⟨g1, -⟩ := same_next h.net.c oc ord fill pi po
      have hq : (∃ e, (Spec.Src.call oc s.net.c ord fill (.next pi po)).2 = .next (.err e)) ↔
          ∃ e, (t.net.c.next oc pi po).2 = .err e := by
        rw [g1]
        exact ⟨fun ⟨e, he⟩ => ⟨e, by injection he⟩, fun ⟨e, he⟩ => ⟨e, by rw [he]⟩⟩
      simp only [Spec.Src.LateStation.fstep, LateStation.fstep, h.stamps]
      by_cases hd : Decodable cfg pi po ∧ ∃ e, (t.net.c.next oc pi po).2 = .err e
      · rw [if_pos hd, if_pos ⟨hd.1, hq.2 hd.2⟩]
      · rw [if_neg hd, if_neg fun g => hd ⟨g.1, hq.1 g.2⟩]
    | write j buf => exact h.step oc w hw ord fill hc (.ev (.write j buf))
    | read j n => exact h.step oc w hw ord fill hc (.ev (.read j n))
    | other op => exact h.step oc w hw ord fill hc (.ev (.other op))
    | cycle => exact h.step oc w hw ord fill hc (.ev .cycle)
    | again => exact h.step oc w hw ord fill hc (.ev .again)
    | deliver => exact h.step oc w hw ord fill hc (.ev .deliver)
    | loseOut n => exact h.step oc w hw ord fill hc (.ev (.loseOut n))
    | sample pi => exact h.step oc w hw ord fill hc (.ev (.sample pi))
    | arrive => exact h.step oc w hw ord fill hc (.ev .arrive)
    | loseIn n => exact h.step oc w hw ord fill hc (.ev (.loseIn n))
    | take j => exact h.step oc w hw ord fill hc (.ev (.take j))
    | post j seg => exact h.step oc w hw ord fill hc (.ev (.post j seg))
    | hide j => exact h.step oc w hw ord fill hc (.ev (.hide j))

theorem SameStation.frun {oc : Bool} {cfg : CouplerConfig} {w : Wiring} (hw : w.modules ≠ [])
    (ord : Nat → Imp.Orders) (fill : Nat → Nat → Byte) {c d} (hc : ∃ i, c = embed i ∧ Imp.SameC i d)
    (evs : List LateStationEv) :
    ∀ (k : Nat) {s : Spec.Src.LateStation} {t : Spec.LateStation}, SameStation s t →
      SameStation (s.frun oc cfg w ord fill c k evs) (t.frun oc cfg w d evs) := by
  induction evs with
  | nil => intro k s t h; exact h
  | cons e evs ih => intro k s t h; exact ih (k + 1) (h.fstep oc cfg w hw (ord k) (fill k) hc e)

end Src

section

variable (oc : Bool) (cfg : CouplerConfig) (w : Wiring) (hw : w.modules ≠ [])
  (ord : Nat → Imp.Orders) (fill : Nat → Nat → Byte) (s : Spec.Src.LateNet) (h : s.Started oc cfg w)
  (evs : List LateStationEv)

include hw h

/-- C156 for the translated source, values: whatever is late or lost and whatever cycles fail, the station
has for every output channel of a module that is not serial the value of the last `set_output` of the
calls made before the cycle its image comes from, without the calls discarded by failing cycles. -/
theorem C156_source_values (hu : LateStation.SmallImages oc cfg evs)
    (j : Nat) (hdis : OutputsKept cfg j)
    (t : ModuleType) (par : List Word) (o i : Word) (hcfg : ConfiguredAt cfg j t par o i)
    (ht : t ≠ .UR20_1COM_232_485_422) (hno : o ≠ noOffset)
    (hal : o.toNat % 16 = 0 ∨ outputBytes t par = 1) (ch : Nat) (hch : ch < outputChannels t) :
    let r := (Spec.Src.LateStation.start s).frun oc cfg w ord fill s.c 0 evs
    (∀ v, lastSet ⟨j, ch⟩ r.stamps.out = some v → Settled t par r.net.out (outBit o) ch v) ∧
    (lastSet ⟨j, ch⟩ r.stamps.out = none → ∀ v, Settled t par s.out (outBit o) ch v →
      Settled t par r.net.out (outBit o) ch v) := by
  intro r
  obtain ⟨d, hd, hs⟩ := Src.late_started h
  have hr := Src.SameStation.frun (oc := oc) (cfg := cfg) hw ord fill hs.c evs 0
    (s := Spec.Src.LateStation.start s) (t := LateStation.start d) ⟨hs, rfl⟩
  rw [show r.stamps = _ from hr.stamps, show r.net.out = _ from hr.net.out, hs.out]
  exact C156_values oc cfg w hw d hd evs hu j hdis t par o i hcfg ht hno hal ch hch

/-- C156 for the translated source, with the bounds of C107. -/
theorem C156_source_analog (hu : LateStation.SmallImages oc cfg evs)
    (j : Nat) (hdis : OutputsKept cfg j)
    (t : ModuleType) (par : List Word) (o i : Word) (hcfg : ConfiguredAt cfg j t par o i)
    (hno : o ≠ noOffset) (hal : o.toNat % 16 = 0) (ch : Nat) (hch : ch < 4)
    (r : AnalogUIRange) (f : DataFormat) (hf : OutputFormat t par ch r f) (hen : r ≠ .Disabled)
    (w0 : Word) (hw0 : s.out[outBit o / 16 + ch]? = some w0) :
    let st := (Spec.Src.LateStation.start s).frun oc cfg w ord fill s.c 0 evs
    (∀ v, lastSet ⟨j, ch⟩ st.stamps.out = some v → ∃ (w : Word) (e : ℤ),
      st.net.out[outBit o / 16 + ch]? = some w ∧
      ((∃ x, v = .decimal32 x ∧ EncodedAs (r, f) x e) ∨ (v = .disabled ∧ e = 0)) ∧
      |w.toInt - e| ≤ maxDrift r) ∧
    (lastSet ⟨j, ch⟩ st.stamps.out = none →
      ∃ w : Word, st.net.out[outBit o / 16 + ch]? = some w ∧ |w.toInt - w0.toInt| ≤ maxDrift r) := by
  intro st
  obtain ⟨d, hd, hs⟩ := Src.late_started h
  have hr := Src.SameStation.frun (oc := oc) (cfg := cfg) hw ord fill hs.c evs 0
    (s := Spec.Src.LateStation.start s) (t := LateStation.start d) ⟨hs, rfl⟩
  rw [show st.stamps = _ from hr.stamps, show st.net.out = _ from hr.net.out]
  exact C156_analog oc cfg w hw d hd evs hu j hdis t par o i hcfg hno hal ch hch r f hf hen w0
    (by rw [← hs.out]; exact hw0)

/-- C156 for the translated source, order: the image of the station carries the values of some of the
calls that count, and in the course of a schedule the station never goes back to an older one. -/
theorem C156_source_order (evs' : List LateStationEv) :
    let r := (Spec.Src.LateStation.start s).frun oc cfg w ord fill s.c 0 evs
    r.stamps.out <+: r.stamps.calls ∧
      r.stamps.out <+: (r.frun oc cfg w ord fill s.c evs.length evs').stamps.out := by
  intro r
  obtain ⟨d, hd, hs⟩ := Src.late_started h
  have hr := Src.SameStation.frun (oc := oc) (cfg := cfg) hw ord fill hs.c evs 0
    (s := Spec.Src.LateStation.start s) (t := LateStation.start d) ⟨hs, rfl⟩
  have hr' := Src.SameStation.frun (oc := oc) (cfg := cfg) hw ord fill hs.c evs' evs.length hr
  rw [show (r.frun oc cfg w ord fill s.c evs.length evs').stamps = _ from hr'.stamps,
    show r.stamps = _ from hr.stamps]
  exact C156_order oc cfg w hw d hd evs evs'

/-- C156 for the translated source, progress: when nothing is on the way any more, one round whose cycle
succeeds brings the values of all calls that count to the station. -/
theorem C156_source_progress (pi img : List Word) :
    let r := (Spec.Src.LateStation.start s).frun oc cfg w ord fill s.c 0 evs
    r.net.ins = [] → r.net.outs = [] → r.net.Shows w pi →
    (Spec.Src.call oc r.net.c (ord (evs.length + 2)) (fill (evs.length + 2))
      (.next pi r.net.kept)).2 = .next (.ok img) →
    let r' := r.run oc w ord fill s.c evs.length (LateStation.round pi)
    r'.stamps.out = r.stamps.calls ∧ r'.stamps.calls = r.stamps.calls ∧ r'.net.out = img := by
  intro r hi hos hsh hn r'
  obtain ⟨d, hd, hs⟩ := Src.late_started h
  have hr : Src.SameStation r _ := Src.SameStation.frun (oc := oc) (cfg := cfg) hw ord fill hs.c evs 0
    (s := Spec.Src.LateStation.start s) (t := LateStation.start d) ⟨hs, rfl⟩
  have hr' : Src.SameStation r' _ :=
    Src.SameStation.run (oc := oc) hw ord fill hs.c (LateStation.round pi) evs.length hr
  rw [(Src.same_next hr.net.c oc _ _ pi r.net.kept).1, hr.net.kept] at hn
  rw [hr'.stamps, hr.stamps, hr'.net.out]
  exact C156_progress oc cfg w hw d hd evs pi img
    (by rw [← hr.net.ins]; exact hi) (by rw [← hr.net.outs]; exact hos) ((hr.net.shows w pi).1 hsh)
    (by injection hn)

end

section

variable (ord : Nat → Imp.Orders) (fill : Nat → Nat → Byte)

theorem exDropSource_same : Src.SameStation ((Spec.Src.LateStation.start exLateSource).frun true exDuo
    exWires ord fill exLateSource.c 0 exDropEvs) exDropRun :=
  Src.SameStation.frun (by decide) ord fill exLateSource_same.c exDropEvs 0 ⟨exLateSource_same, rfl⟩

example := C156_source_values true exDuo exWires (by decide) ord fill exLateSource exLateSource_started
  exDropEvs exDropEvs_small 0 exDuo_kept .UR20_4DO_P (List.replicate 4 0) 0x8000#16 noOffset
  ⟨rfl, rfl, rfl, rfl⟩ (by decide) (by decide) (.inl (by decide)) 0 (by decide)

example := C156_source_order true exDuo exWires (by decide) ord fill exLateSource exLateSource_started
  exDropEvs [.ev .cycle]

/-- The next image has the first and the fourth output on, not the second, which was set before the failing
cycle. -/
example : ∃ img, img[0]? = some 9#16 ∧
    let r := (Spec.Src.LateStation.start exLateSource).frun true exDuo exWires ord fill exLateSource.c 0
      exDropEvs
    (r.run true exWires ord fill exLateSource.c exDropEvs.length
      (LateStation.round (List.replicate 8 0#16))).net.out = img := by
  have hr := exDropSource_same ord fill
  obtain ⟨g1, g2, g3, -, -, g4⟩ := exDropRun_good
  cases hn : (exDropRun.net.c.next true (List.replicate 8 0#16) exDropRun.net.kept).2 with
  | ok img =>
    rw [hn] at g4
    refine ⟨img, Res.ok.inj g4, (C156_source_progress true exDuo exWires (by decide) ord fill exLateSource
      exLateSource_started exDropEvs (List.replicate 8 0#16) img (hr.net.ins.trans g1)
      (hr.net.outs.trans g2) ((hr.net.shows exWires _).2 g3) ?_).2.2⟩
    rw [(Src.same_next hr.net.c true _ _ _ _).1, hr.net.kept, hn]
  | err e => rw [hn] at g4; cases g4
  | panic => rw [hn] at g4; cases g4

example (c : Src.ur20_fbc_mod_tcp.Coupler) (h : Src.ur20_fbc_mod_tcp.Coupler.new true exAoCom = .ok c)
    (d : Coupler) (hd : Coupler.new exAoCom = .ok d) :=
  C156_source_analog true exAoCom exAoComWires (by decide) ord fill (exAoComSource c d)
    (exAoComSource_started h hd) exAoComEvs (fun _ _ _ _ h => by cases h) 0
    (exAoCom_outputs 0) .UR20_4AO_UI_16 _ 0x8000#16 _
    ⟨rfl, rfl, rfl, rfl⟩ (by decide) (by decide) 0 (by decide) .mA0To20 .S7 ⟨⟨_, rfl, rfl⟩, ⟨_, rfl, rfl⟩⟩
    (by decide) 45#16 rfl

end

end Ur20
