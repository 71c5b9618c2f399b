import Verif.Spec.LateStationSource
import Verif.Props.LateSource
import Verif.Props.LateStation

/-!
# C150 for the translated source

The guarantees of C150, stated of the functions of the translated source (`Verif/Source`) only.
-/

namespace Ur20

open Spec

open Src.ur20_fbc_mod_tcp (embed new_eq)

open scoped List

namespace Src

/-- The system with the translated source and the one with the model are in the same state. -/
structure SameStation (s : Spec.Src.LateStation) (t : Spec.LateStation) : Prop where
  net : SameLate s.net t.net
  stamps : s.stamps = t.stamps

theorem SameStation.step {s : Spec.Src.LateStation} {t : Spec.LateStation} (h : SameStation s t)
    (oc : Bool) (w : Wiring) (hw : w.modules ≠ []) (ord : Imp.Orders) (fill : Nat → Byte) {c d}
    (hc : ∃ i, c = embed i ∧ Imp.SameC i d) (e : LateStationEv) :
    SameStation (s.step oc w ord fill c e) (t.step oc w d e) := by
  cases e with
  | restart pi =>
    exact ⟨h.net.restart hc pi, by simp only [Spec.Src.LateStation.step, LateStation.step, h.stamps]⟩
  | set j v =>
    simp only [Spec.Src.LateStation.step, LateStation.step]
    split_ifs
    · exact ⟨h.net.withC (same_called h.net.c oc ord fill (.setOutput ⟨j, 0⟩ v) trivial).1, by
        simp only [h.stamps]⟩
    · exact h
  | ev e =>
    have h' := h.net.step oc w hw ord fill e
    exact ⟨h', by
      simp only [Spec.Src.LateStation.step, LateStation.step, h.stamps, h.net.cycles, h'.cycles]⟩

theorem SameStation.run {oc : Bool} {w : Wiring} (hw : w.modules ≠ [])
    (ord : Nat → Imp.Orders) (fill : Nat → Nat → Byte) {c d} (hc : ∃ i, c = embed i ∧ Imp.SameC i d)
    (evs : List LateStationEv) :
    ∀ (k : Nat) {s : Spec.Src.LateStation} {t : Spec.LateStation}, SameStation s t →
      SameStation (s.run oc w ord fill c k evs) (t.run oc w d evs) := by
  induction evs with
  | nil => intro k s t h; exact h
  | cons e evs ih => intro k s t h; exact ih (k + 1) (h.step oc w hw (ord k) (fill k) hc e)

end Src

section

variable (oc : Bool) (cfg : CouplerConfig) (w : Wiring) (hw : w.modules ≠ [])
  (ord : Nat → Imp.Orders) (fill : Nat → Nat → Byte) (s : Spec.Src.LateNet) (h : s.Started oc cfg w)
  (evs : List LateStationEv)

include hw h

/-- C150 for the translated source, values: next to any number of serial devices and whatever is late or
lost, the station has for every output channel of another module the value of the last `set_output` of the
calls made before the cycle its image comes from, and what it had on at the start if there was none, also
after restarts. -/
theorem C150_source_values (hu : LateStation.OnlyUndecodable oc cfg evs)
    (j : Nat) (hdis : OutputsKept cfg j)
    (t : ModuleType) (par : List Word) (o i : Word) (hcfg : ConfiguredAt cfg j t par o i)
    (ht : t ≠ .UR20_1COM_232_485_422) (hno : o ≠ noOffset)
    (hal : o.toNat % 16 = 0 ∨ outputBytes t par = 1) (ch : Nat) (hch : ch < outputChannels t) :
    let r := (Spec.Src.LateStation.start s).run oc w ord fill s.c 0 evs
    (∀ v, lastSet ⟨j, ch⟩ r.stamps.out = some v → Settled t par r.net.out (outBit o) ch v) ∧
    (lastSet ⟨j, ch⟩ r.stamps.out = none → ∀ v, Settled t par s.out (outBit o) ch v →
      Settled t par r.net.out (outBit o) ch v) := by
  intro r
  obtain ⟨d, hd, hs⟩ := Src.late_started h
  have hr := Src.SameStation.run (oc := oc) hw ord fill hs.c evs 0
    (s := Spec.Src.LateStation.start s) (t := LateStation.start d) ⟨hs, rfl⟩
  rw [show r.stamps = _ from hr.stamps, show r.net.out = _ from hr.net.out, hs.out]
  exact C150_values oc cfg w hw d hd evs hu j hdis t par o i hcfg ht hno hal ch hch

/-- C150 for the translated source, with the bounds of C107. -/
theorem C150_source_analog (hu : LateStation.OnlyUndecodable oc cfg evs)
    (j : Nat) (hdis : OutputsKept cfg j)
    (t : ModuleType) (par : List Word) (o i : Word) (hcfg : ConfiguredAt cfg j t par o i)
    (hno : o ≠ noOffset) (hal : o.toNat % 16 = 0) (ch : Nat) (hch : ch < 4)
    (r : AnalogUIRange) (f : DataFormat) (hf : OutputFormat t par ch r f) (hen : r ≠ .Disabled)
    (w0 : Word) (hw0 : s.out[outBit o / 16 + ch]? = some w0) :
    let st := (Spec.Src.LateStation.start s).run oc w ord fill s.c 0 evs
    (∀ v, lastSet ⟨j, ch⟩ st.stamps.out = some v → ∃ (w : Word) (e : ℤ),
      st.net.out[outBit o / 16 + ch]? = some w ∧
      ((∃ x, v = .decimal32 x ∧ EncodedAs (r, f) x e) ∨ (v = .disabled ∧ e = 0)) ∧
      |w.toInt - e| ≤ maxDrift r) ∧
    (lastSet ⟨j, ch⟩ st.stamps.out = none →
      ∃ w : Word, st.net.out[outBit o / 16 + ch]? = some w ∧ |w.toInt - w0.toInt| ≤ maxDrift r) := by
  intro st
  obtain ⟨d, hd, hs⟩ := Src.late_started h
  have hr := Src.SameStation.run (oc := oc) hw ord fill hs.c evs 0
    (s := Spec.Src.LateStation.start s) (t := LateStation.start d) ⟨hs, rfl⟩
  rw [show st.stamps = _ from hr.stamps, show st.net.out = _ from hr.net.out]
  exact C150_analog oc cfg w hw d hd evs hu j hdis t par o i hcfg hno hal ch hch r f hf hen w0
    (by rw [← hs.out]; exact hw0)

/-- C150 for the translated source, order: the image of the station carries the values of some of the
calls made so far, and in the course of a schedule the station never goes back to an older one. -/
theorem C150_source_order (evs' : List LateStationEv) :
    let r := (Spec.Src.LateStation.start s).run oc w ord fill s.c 0 evs
    r.stamps.out <+: r.stamps.calls ∧
      r.stamps.out <+: (r.run oc w ord fill s.c evs.length evs').stamps.out := by
  intro r
  obtain ⟨d, hd, hs⟩ := Src.late_started h
  have hr := Src.SameStation.run (oc := oc) hw ord fill hs.c evs 0
    (s := Spec.Src.LateStation.start s) (t := LateStation.start d) ⟨hs, rfl⟩
  have hr' := Src.SameStation.run (oc := oc) hw ord fill hs.c evs' evs.length hr
  rw [show (r.run oc w ord fill s.c evs.length evs').stamps = _ from hr'.stamps,
    show r.stamps = _ from hr.stamps]
  exact C150_order oc cfg w hw d hd evs evs'

/-- C150 for the translated source, progress: when nothing is on the way any more then one round brings
the values of all calls to the station; its cycle succeeds. -/
theorem C150_source_progress (ho : OutputsReady cfg s.out) (hv : LateStation.AcceptedValues cfg evs)
    (pi : List Word) (hpi : InputsReady cfg pi) :
    let r := (Spec.Src.LateStation.start s).run oc w ord fill s.c 0 evs
    r.net.ins = [] → r.net.outs = [] → r.net.Shows w pi →
    let r' := r.run oc w ord fill s.c evs.length (LateStation.round pi)
    r'.stamps.out = r.stamps.calls ∧ r'.stamps.calls = r.stamps.calls ∧
      r'.net.cycles = r.net.cycles + 1 := by
  intro r hi hos hsh r'
  obtain ⟨d, hd, hs⟩ := Src.late_started h
  have hr : Src.SameStation r _ := Src.SameStation.run (oc := oc) hw ord fill hs.c evs 0
    (s := Spec.Src.LateStation.start s) (t := LateStation.start d) ⟨hs, rfl⟩
  have hr' : Src.SameStation r' _ :=
    Src.SameStation.run (oc := oc) hw ord fill hs.c (LateStation.round pi) evs.length hr
  rw [hr'.stamps, hr.stamps, hr'.net.cycles, hr.net.cycles]
  exact C150_progress oc cfg w hw d hd (by rw [← hs.out]; exact ho) evs hv pi hpi
    (by rw [← hr.net.ins]; exact hi) (by rw [← hr.net.outs]; exact hos) ((hr.net.shows w pi).1 hsh)

end

section

variable (ord : Nat → Imp.Orders) (fill : Nat → Nat → Byte)

example := C150_source_values true exDuo exWires (by decide) ord fill exLateSource exLateSource_started
  exLateStationEvs exLateStationEvs_good.1 0 exDuo_kept .UR20_4DO_P (List.replicate 4 0) 0x8000#16 noOffset
  ⟨rfl, rfl, rfl, rfl⟩ (by decide) (by decide) (.inl (by decide)) 1 (by decide)

example := C150_source_order true exDuo exWires (by decide) ord fill exLateSource exLateSource_started
  exLateStationEvs [.ev .cycle]

/-- The hypotheses of `C150_source_progress` are met: the round brings the calls after the restart. -/
example :
    let r := (Spec.Src.LateStation.start exLateSource).run true exWires ord fill exLateSource.c 0
      exLateStationEvs
    let r' := r.run true exWires ord fill exLateSource.c exLateStationEvs.length
      (LateStation.round [0x0020#16, 0#16, 0#16, 0#16, 0x0109#16, 0x0041#16, 0#16, 0#16])
    r'.stamps.out = r.stamps.calls ∧ r'.stamps.calls = r.stamps.calls ∧
      r'.net.cycles = r.net.cycles + 1 := by
  intro r
  have hr : Src.SameStation r ((LateStation.start exLateNet).run true exWires exLateNet.c
      exLateStationEvs) :=
    Src.SameStation.run (by decide) ord fill exLateSource_same.c exLateStationEvs 0
      ⟨exLateSource_same, rfl⟩
  exact C150_source_progress true exDuo exWires (by decide) ord fill exLateSource exLateSource_started
    exLateStationEvs exLateNet_ready exLateStationEvs_good.2 _ exLateNetRun_good.2.2.2.1.1
    (by rw [show r.net.ins = _ from hr.net.ins]; decide +kernel)
    (by rw [show r.net.outs = _ from hr.net.outs]; decide +kernel)
    ((hr.net.shows exWires _).2 (by decide +kernel))

/-- The station of the example of `C150_analog`, with the translated source. -/
def exAoComSource (c : Src.ur20_fbc_mod_tcp.Coupler) (d : Coupler) : Spec.Src.LateNet where
  c := c
  kept := (exAoComNet d).kept
  inp := (exAoComNet d).inp
  ins := []
  outs := []
  out := (exAoComNet d).out
  cycles := 0
  line := (exAoComNet d).line

/-- The coupler of this station exists … -/
theorem exAoCom_source : ∃ c, Src.ur20_fbc_mod_tcp.Coupler.new true exAoCom = .ok c := by
  obtain ⟨d, hd⟩ : ∃ d, Coupler.new exAoCom = .ok d := ⟨_, rfl⟩
  have hs := Imp.new_same exAoCom
  rw [hd] at hs
  obtain ⟨i, h1, -⟩ := hs
  rw [new_eq, h1]
  exact ⟨_, rfl⟩

theorem exAoComSource_started {c : Src.ur20_fbc_mod_tcp.Coupler}
    (h : Src.ur20_fbc_mod_tcp.Coupler.new true exAoCom = .ok c) {d : Coupler}
    (hd : Coupler.new exAoCom = .ok d) : (exAoComSource c d).Started true exAoCom exAoComWires where
  c := h
  distinct := by decide
  serial := by
    intro j hj
    simp only [exAoComWires, List.mem_cons, List.not_mem_nil, or_false] at hj
    subst hj
    exact ⟨List.replicate 10 0, ⟨rfl, rfl, rfl, rfl⟩, rfl, by decide, by decide, by decide, by decide,
      by decide⟩
  kept_bytes := fun j _ => exAoCom_outputs j
  kept := rfl
  out := (exAoComNet_started hd).out
  inp := (exAoComNet_started hd).inp
  ins := rfl
  outs := rfl
  cycles := rfl
  devices := (exAoComNet_started hd).devices
  logs := (exAoComNet_started hd).logs

/-- … and the hypotheses of `C150_source_analog` are met. -/
example (c : Src.ur20_fbc_mod_tcp.Coupler) (h : Src.ur20_fbc_mod_tcp.Coupler.new true exAoCom = .ok c)
    (d : Coupler) (hd : Coupler.new exAoCom = .ok d) :=
  C150_source_analog true exAoCom exAoComWires (by decide) ord fill (exAoComSource c d)
    (exAoComSource_started h hd) exAoComEvs (fun pi po h => by simp [exAoComEvs] at h) 0
    (exAoCom_outputs 0) .UR20_4AO_UI_16 _ 0x8000#16 _
    ⟨rfl, rfl, rfl, rfl⟩ (by decide) (by decide) 0 (by decide) .mA0To20 .S7 ⟨⟨_, rfl, rfl⟩, ⟨_, rfl, rfl⟩⟩
    (by decide) 45#16 rfl

end

end Ur20
