import Verif.Props.Params
import Verif.Spec.Settings

/-! C96: every representable setting can be written, and what is written is what is configured. -/

namespace Ur20

open Spec

namespace SettingsProof

theorem codec_of {α : Type} [Coded α] (toU : α → Option Word) (from_ : Word → Option α)
    (h1 : ∀ v, (toU v).map BitVec.toNat = some (code v))
    (h2 : ∀ v w, toU v = some w → from_ w = some v)
    (h3 : ∀ w v, from_ w = some v → w.toNat = code v) : Codec toU from_ := by
  refine ⟨h1, fun v w => ⟨fun h => ?_, h2 v w⟩⟩
  have e := h1 v
  cases ht : toU v with
  | none => rw [ht] at e; cases e
  | some w' =>
    rw [ht] at e
    simp only [Option.map_some, Option.some.injEq] at e
    rw [BitVec.toNat_inj.1 (e.trans (h3 w v h).symm)]

/-- The relations of a register list determine what they describe. -/
def Determines {β : Type} (g : β → List (Word → Prop)) : Prop :=
  ∀ (ws : List Word) (k : Nat) (b b' : β), Fits ws k (g b) → Fits ws k (g b') → b = b'

theorem channels_unique {β : Type} (g : β → List (Word → Prop)) (n : Nat)
    (hn : ∀ b, (g b).length = n) (hg : Determines g) (ws : List Word) :
    ∀ (l l' : List β) (k : Nat), l.length = l'.length → Fits ws k (l.flatMap g) →
      Fits ws k (l'.flatMap g) → l = l'
  | [], [], _, _, _, _ => rfl
  | [], _ :: _, _, hl, _, _ => by simp at hl
  | _ :: _, [], _, hl, _, _ => by simp at hl
  | b :: l, b' :: l', k, hl, h, h' => by
    rw [List.flatMap_cons, fits_append] at h h'
    rw [hn] at h h'
    rw [hg ws k b b' h.1 h'.1, channels_unique g n hn hg ws l l' (k + n)
      (by simpa using hl) h.2 h'.2]

/-- Registers that hold what they should are at most the largest code. -/
def Bounded {β : Type} (g : β → List (Word → Prop)) (ms : List Nat) : Prop :=
  ∀ (ws : List Word) (k : Nat) (b : β), Fits ws k (g b) → Within ws k ms

theorem within_append (ws : List Word) (k : Nat) (a b : List Nat) :
    Within ws k (a ++ b) ↔ Within ws k a ∧ Within ws (k + a.length) b := by
  simp only [Within, List.map_append, fits_append, List.length_map]

theorem channels_bounded {β : Type} (g : β → List (Word → Prop)) (ms : List Nat)
    (hn : ∀ b, (g b).length = ms.length) (hg : Bounded g ms) (ws : List Word) :
    ∀ (l : List β) (k : Nat), Fits ws k (l.flatMap g) →
      Within ws k (List.replicate l.length ms).flatten
  | [], _, _ => trivial
  | b :: l, k, h => by
    rw [List.flatMap_cons, fits_append, hn] at h
    rw [List.length_cons, List.replicate_succ, List.flatten_cons, within_append]
    exact ⟨hg ws k b h.1, channels_bounded g ms hn hg ws l _ h.2⟩

theorem describes_fits (ws : List Word) (m : Module) (h : Describes ws m) :
    Fits ws 0 (registers m) := by
  rw [fits_iff]
  intro i P hP
  have hi : i < ws.length := by
    rw [← h.1]
    exact (List.getElem?_eq_some_iff.1 hP).1
  exact ⟨ws[i], by simp, h.2 i P _ hP (List.getElem?_eq_getElem hi)⟩

theorem word_le (w : Word) : w.toNat ≤ 65535 := by omega

theorem holdsSubstitute_unique (rng : AnalogUIRange) (fmt : DataFormat) (s s' : F32) (w : Word)
    (h : holdsSubstitute rng fmt s w) (h' : holdsSubstitute rng fmt s' w) : s = s' := by
  unfold holdsSubstitute at h h'
  split at h
  · rw [if_pos ‹_›] at h'; rw [h, h']
  · rw [if_neg ‹_›, h] at h'; exact Option.some.inj h'

/-- The codes of an enumeration are different and at most `m`. -/
class Small (α : Type) [Coded α] (m : outParam Nat) : Prop where
  inj : ∀ a b : α, code a = code b → a = b
  le : ∀ a : α, code a ≤ m
  lt : m < 65536

instance : Small Bool 1 := ⟨by decide, by decide, by decide⟩
instance : Small DataFormat 1 :=
  ⟨fun a b => by cases a <;> cases b <;> simp [code], fun a => by cases a <;> simp [code],
    by decide⟩
instance : Small AnalogUIRange 8 :=
  ⟨fun a b => by cases a <;> cases b <;> simp [code], fun a => by cases a <;> simp [code],
    by decide⟩
instance : Small AnalogIRange 2 :=
  ⟨fun a b => by cases a <;> cases b <;> simp [code], fun a => by cases a <;> simp [code],
    by decide⟩
instance : Small RtdRange 18 :=
  ⟨fun a b => by cases a <;> cases b <;> simp [code], fun a => by cases a <;> simp [code],
    by decide⟩
instance : Small TemperatureUnit 2 :=
  ⟨fun a b => by cases a <;> cases b <;> simp [code], fun a => by cases a <;> simp [code],
    by decide⟩
instance : Small ConnectionType 2 :=
  ⟨fun a b => by cases a <;> cases b <;> simp [code], fun a => by cases a <;> simp [code],
    by decide⟩
instance : Small ConversionTime 5 :=
  ⟨fun a b => by cases a <;> cases b <;> simp [code], fun a => by cases a <;> simp [code],
    by decide⟩
instance : Small InputFilter 16 :=
  ⟨fun a b => by cases a <;> cases b <;> simp [code], fun a => by cases a <;> simp [code],
    by decide⟩
instance : Small InputDelay 5 :=
  ⟨fun a b => by cases a <;> cases b <;> simp [code], fun a => by cases a <;> simp [code],
    by decide⟩
instance : Small FrequencySuppression 3 :=
  ⟨fun a b => by cases a <;> cases b <;> simp [code], fun a => by cases a <;> simp [code],
    by decide⟩
instance : Small TcRange 19 :=
  ⟨fun a b => by cases a <;> cases b <;> simp [code], fun a => by cases a <;> simp [code],
    by decide⟩
instance : Small ColdJunctionCompensation 4 :=
  ⟨fun a b => by cases a <;> cases b <;> simp [code], fun a => by cases a <;> simp [code],
    by decide⟩
instance : Small OperatingMode 3 :=
  ⟨fun a b => by cases a <;> cases b <;> simp [code], fun a => by cases a <;> simp [code],
    by decide⟩
instance : Small DataBits 1 :=
  ⟨fun a b => by cases a <;> cases b <;> simp [code], fun a => by cases a <;> simp [code],
    by decide⟩
instance : Small BaudRate 11 :=
  ⟨fun a b => by cases a <;> cases b <;> simp [code], fun a => by cases a <;> simp [code],
    by decide⟩
instance : Small StopBit 1 :=
  ⟨fun a b => by cases a <;> cases b <;> simp [code], fun a => by cases a <;> simp [code],
    by decide⟩
instance : Small Parity 2 :=
  ⟨fun a b => by cases a <;> cases b <;> simp [code], fun a => by cases a <;> simp [code],
    by decide⟩
instance : Small FlowControl 2 :=
  ⟨fun a b => by cases a <;> cases b <;> simp [code], fun a => by cases a <;> simp [code],
    by decide⟩
instance : Small ProcessDataLength 1 :=
  ⟨fun a b => by cases a <;> cases b <;> simp [code], fun a => by cases a <;> simp [code],
    by decide⟩

variable {ws : List Word} {k : Nat}

theorem at_holds {α : Type} [Coded α] {m : Nat} [Small α m] {a b : α}
    (h : ∃ w, ws[k]? = some w ∧ holds a w) (h' : ∃ w, ws[k]? = some w ∧ holds b w) : a = b := by
  obtain ⟨w, e, h⟩ := h
  obtain ⟨w', e', h'⟩ := h'
  rw [e] at e'
  cases e'
  exact Small.inj a b (h.symm.trans h')

theorem at_int {a b : Int} (h : ∃ w, ws[k]? = some w ∧ holdsInt a w)
    (h' : ∃ w, ws[k]? = some w ∧ holdsInt b w) : a = b := by
  obtain ⟨w, e, h⟩ := h
  obtain ⟨w', e', h'⟩ := h'
  rw [e] at e'
  cases e'
  exact h.symm.trans h'

theorem at_char {a b : Byte} (h : ∃ w, ws[k]? = some w ∧ holdsChar a w)
    (h' : ∃ w, ws[k]? = some w ∧ holdsChar b w) : a = b := by
  obtain ⟨w, e, h⟩ := h
  obtain ⟨w', e', h'⟩ := h'
  rw [e] at e'
  cases e'
  exact BitVec.toNat_inj.1 (h.symm.trans h')

theorem at_sub {rng : AnalogUIRange} {fmt : DataFormat} {a b : F32}
    (h : ∃ w, ws[k]? = some w ∧ holdsSubstitute rng fmt a w)
    (h' : ∃ w, ws[k]? = some w ∧ holdsSubstitute rng fmt b w) : a = b := by
  obtain ⟨w, e, h⟩ := h
  obtain ⟨w', e', h'⟩ := h'
  rw [e] at e'
  cases e'
  exact holdsSubstitute_unique rng fmt a b w h h'

theorem le_holds {α : Type} [Coded α] {m : Nat} [Small α m] {a : α}
    (h : ∃ w, ws[k]? = some w ∧ holds a w) : ∃ w, ws[k]? = some w ∧ w.toNat ≤ m := by
  obtain ⟨w, e, h⟩ := h
  exact ⟨w, e, by rw [h]; exact Small.le a⟩

theorem le_any {P : Word → Prop} (h : ∃ w, ws[k]? = some w ∧ P w) :
    ∃ w, ws[k]? = some w ∧ w.toNat ≤ 65535 := by
  obtain ⟨w, e, _⟩ := h
  exact ⟨w, e, word_le w⟩

theorem le_char {a : Byte} (h : ∃ w, ws[k]? = some w ∧ holdsChar a w) :
    ∃ w, ws[k]? = some w ∧ w.toNat ≤ 255 := by
  obtain ⟨w, e, h⟩ := h
  refine ⟨w, e, ?_⟩
  rw [holdsChar] at h
  omega

/-- the registers of a channel -/
def diRegs (c : Di.ChannelParameters) : List (Word → Prop) :=
  [holds c.inputDelay]

theorem di_determines : Determines diRegs := by
  rintro ws k ⟨⟩ ⟨⟩ ⟨h0, _⟩ ⟨g0, _⟩
  obtain rfl := at_holds h0 g0
  rfl

theorem di_bounded : Bounded diRegs [5] :=
  fun _ _ _ ⟨h0, _⟩ =>
    ⟨le_holds h0, trivial⟩

/-- the registers of a channel -/
def doutRegs (c : Do.ChannelParameters) : List (Word → Prop) :=
  [holds c.substituteValue]

theorem dout_determines : Determines doutRegs := by
  rintro ws k ⟨⟩ ⟨⟩ ⟨h0, _⟩ ⟨g0, _⟩
  obtain rfl := at_holds h0 g0
  rfl

theorem dout_bounded : Bounded doutRegs [1] :=
  fun _ _ _ ⟨h0, _⟩ =>
    ⟨le_holds h0, trivial⟩

/-- the registers of a channel -/
def aoRegs (c : Ao.ChannelParameters) : List (Word → Prop) :=
  [holds c.dataFormat, holds c.outputRange,
   holdsSubstitute c.outputRange c.dataFormat c.substituteValue]

theorem ao_determines : Determines aoRegs := by
  rintro ws k ⟨⟩ ⟨⟩ ⟨h0, h1, h2, _⟩ ⟨g0, g1, g2, _⟩
  obtain rfl := at_holds h0 g0
  obtain rfl := at_holds h1 g1
  obtain rfl := at_sub h2 g2
  rfl

theorem ao_bounded : Bounded aoRegs [1, 8, 65535] :=
  fun _ _ _ ⟨h0, h1, h2, _⟩ =>
    ⟨le_holds h0, le_holds h1, le_any h2, trivial⟩

/-- the registers of a channel -/
def aoDiagRegs (c : AoDiag.ChannelParameters) : List (Word → Prop) :=
  [holds c.dataFormat, holds c.outputRange,
   holdsSubstitute c.outputRange c.dataFormat c.substituteValue, holds c.channelDiagnostics]

theorem aoDiag_determines : Determines aoDiagRegs := by
  rintro ws k ⟨⟩ ⟨⟩ ⟨h0, h1, h2, h3, _⟩ ⟨g0, g1, g2, g3, _⟩
  obtain rfl := at_holds h0 g0
  obtain rfl := at_holds h1 g1
  obtain rfl := at_sub h2 g2
  obtain rfl := at_holds h3 g3
  rfl

theorem aoDiag_bounded : Bounded aoDiagRegs [1, 8, 65535, 1] :=
  fun _ _ _ ⟨h0, h1, h2, h3, _⟩ =>
    ⟨le_holds h0, le_holds h1, le_any h2, le_holds h3, trivial⟩

/-- the registers of a channel -/
def rtdRegs (c : Rtd.ChannelParameters) : List (Word → Prop) :=
  [holds c.measurementRange, holds c.connectionType, holds c.conversionTime,
   holds c.channelDiagnostics, holds c.limitValueMonitoring, holdsInt c.highLimitValue,
   holdsInt c.lowLimitValue]

theorem rtd_determines : Determines rtdRegs := by
  rintro ws k ⟨⟩ ⟨⟩ ⟨h0, h1, h2, h3, h4, h5, h6, _⟩ ⟨g0, g1, g2, g3, g4, g5, g6, _⟩
  obtain rfl := at_holds h0 g0
  obtain rfl := at_holds h1 g1
  obtain rfl := at_holds h2 g2
  obtain rfl := at_holds h3 g3
  obtain rfl := at_holds h4 g4
  obtain rfl := at_int h5 g5
  obtain rfl := at_int h6 g6
  rfl

theorem rtd_bounded : Bounded rtdRegs [18, 2, 5, 1, 1, 65535, 65535] :=
  fun _ _ _ ⟨h0, h1, h2, h3, h4, h5, h6, _⟩ =>
    ⟨le_holds h0, le_holds h1, le_holds h2, le_holds h3, le_holds h4, le_any h5, le_any h6,
     trivial⟩

/-- the registers of a channel -/
def tcRegs (c : Tc.ChannelParameters) : List (Word → Prop) :=
  [holds c.measurementRange, holds c.coldJunctionCompensation, holds c.conversionTime,
   holds c.channelDiagnostics, holds c.limitValueMonitoring, holdsInt c.highLimitValue,
   holdsInt c.lowLimitValue]

theorem tc_determines : Determines tcRegs := by
  rintro ws k ⟨⟩ ⟨⟩ ⟨h0, h1, h2, h3, h4, h5, h6, _⟩ ⟨g0, g1, g2, g3, g4, g5, g6, _⟩
  obtain rfl := at_holds h0 g0
  obtain rfl := at_holds h1 g1
  obtain rfl := at_holds h2 g2
  obtain rfl := at_holds h3 g3
  obtain rfl := at_holds h4 g4
  obtain rfl := at_int h5 g5
  obtain rfl := at_int h6 g6
  rfl

theorem tc_bounded : Bounded tcRegs [19, 4, 5, 1, 1, 65535, 65535] :=
  fun _ _ _ ⟨h0, h1, h2, h3, h4, h5, h6, _⟩ =>
    ⟨le_holds h0, le_holds h1, le_holds h2, le_holds h3, le_holds h4, le_any h5, le_any h6,
     trivial⟩

/-- the registers of a channel -/
def aiDiagRegs (c : AiDiag.ChannelParameters) : List (Word → Prop) :=
  [holds c.channelDiagnostics, holds c.diagShortCircuit, holds c.diagLineBreak,
   holds c.dataFormat, holds c.measurementRange]

theorem aiDiag_determines : Determines aiDiagRegs := by
  rintro ws k ⟨⟩ ⟨⟩ ⟨h0, h1, h2, h3, h4, _⟩ ⟨g0, g1, g2, g3, g4, _⟩
  obtain rfl := at_holds h0 g0
  obtain rfl := at_holds h1 g1
  obtain rfl := at_holds h2 g2
  obtain rfl := at_holds h3 g3
  obtain rfl := at_holds h4 g4
  rfl

theorem aiDiag_bounded : Bounded aiDiagRegs [1, 1, 1, 1, 8] :=
  fun _ _ _ ⟨h0, h1, h2, h3, h4, _⟩ =>
    ⟨le_holds h0, le_holds h1, le_holds h2, le_holds h3, le_holds h4, trivial⟩

/-- the registers of a channel -/
def aiRegs (c : Ai.ChannelParameters) : List (Word → Prop) :=
  [holds c.dataFormat, holds c.measurementRange]

theorem ai_determines : Determines aiRegs := by
  rintro ws k ⟨⟩ ⟨⟩ ⟨h0, h1, _⟩ ⟨g0, g1, _⟩
  obtain rfl := at_holds h0 g0
  obtain rfl := at_holds h1 g1
  rfl

theorem ai_bounded : Bounded aiRegs [1, 8] :=
  fun _ _ _ ⟨h0, h1, _⟩ =>
    ⟨le_holds h0, le_holds h1, trivial⟩

/-- the registers of a channel -/
def aiIRegs (c : AiI.ChannelParameters) : List (Word → Prop) :=
  [holds c.channelDiagnostics, holds c.diagShortCircuit, holds c.dataFormat,
   holds c.measurementRange]

theorem aiI_determines : Determines aiIRegs := by
  rintro ws k ⟨⟩ ⟨⟩ ⟨h0, h1, h2, h3, _⟩ ⟨g0, g1, g2, g3, _⟩
  obtain rfl := at_holds h0 g0
  obtain rfl := at_holds h1 g1
  obtain rfl := at_holds h2 g2
  obtain rfl := at_holds h3 g3
  rfl

theorem aiI_bounded : Bounded aiIRegs [1, 1, 1, 2] :=
  fun _ _ _ ⟨h0, h1, h2, h3, _⟩ =>
    ⟨le_holds h0, le_holds h1, le_holds h2, le_holds h3, trivial⟩

/-- the registers of a channel -/
def fcntRegs (c : Fcnt.ChannelParameters) : List (Word → Prop) :=
  [holds c.inputFilter]

theorem fcnt_determines : Determines fcntRegs := by
  rintro ws k ⟨⟩ ⟨⟩ ⟨h0, _⟩ ⟨g0, _⟩
  obtain rfl := at_holds h0 g0
  rfl

theorem fcnt_bounded : Bounded fcntRegs [16] :=
  fun _ _ _ ⟨h0, _⟩ =>
    ⟨le_holds h0, trivial⟩

/-- the registers of a channel -/
def comRegs (c : Com.ChannelParameters) : List (Word → Prop) :=
  [holds c.operatingMode, holds c.baudRate, holds c.stopBit, holds c.parity, holds c.flowControl,
   holds c.dataBits, holds c.terminatingResistor, holdsChar c.xonChar, holdsChar c.xoffChar]

theorem com_determines : Determines comRegs := by
  rintro ws k ⟨⟩ ⟨⟩ ⟨h0, h1, h2, h3, h4, h5, h6, h7, h8, _⟩ ⟨g0, g1, g2, g3, g4, g5, g6, g7, g8, _⟩
  obtain rfl := at_holds h0 g0
  obtain rfl := at_holds h1 g1
  obtain rfl := at_holds h2 g2
  obtain rfl := at_holds h3 g3
  obtain rfl := at_holds h4 g4
  obtain rfl := at_holds h5 g5
  obtain rfl := at_holds h6 g6
  obtain rfl := at_char h7 g7
  obtain rfl := at_char h8 g8
  rfl

theorem com_bounded : Bounded comRegs [3, 11, 1, 2, 2, 1, 1, 255, 255] :=
  fun _ _ _ ⟨h0, h1, h2, h3, h4, h5, h6, h7, h8, _⟩ =>
    ⟨le_holds h0, le_holds h1, le_holds h2, le_holds h3, le_holds h4, le_holds h5, le_holds h6,
     le_char h7, le_char h8, trivial⟩

theorem settings_isCreated (t : ModuleType) (m : Module) : SettingsOf t m ↔ IsCreated t m := by
  cases t <;> cases m <;> exact Iff.rfl

theorem settings_unique (t : ModuleType) (ws : List Word) (m m' : Module) (hm : IsCreated t m)
    (hm' : IsCreated t m') (h : Fits ws 0 (registers m)) (h' : Fits ws 0 (registers m')) :
    m = m' := by
  cases t <;> cases m <;> simp only [IsCreated] at hm <;> cases m' <;>
    simp only [IsCreated] at hm'
  all_goals try rfl
  case UR20_4DI_P.di.di m m' =>
    have e := channels_unique diRegs 1 (fun _ => rfl) di_determines ws m.chParams
      m'.chParams 0 (hm.2.trans hm'.2.symm) h h'
    have ev := hm.1.trans hm'.1.symm
    cases m; cases m'
    simp only at e ev
    rw [e, ev]
  case UR20_8DI_P_2W.di.di m m' =>
    have e := channels_unique diRegs 1 (fun _ => rfl) di_determines ws m.chParams
      m'.chParams 0 (hm.2.trans hm'.2.symm) h h'
    have ev := hm.1.trans hm'.1.symm
    cases m; cases m'
    simp only at e ev
    rw [e, ev]
  case UR20_4DO_P.dout.dout m m' =>
    have e := channels_unique doutRegs 1 (fun _ => rfl) dout_determines ws m.chParams
      m'.chParams 0 (hm.2.trans hm'.2.symm) h h'
    have ev := hm.1.trans hm'.1.symm
    cases m; cases m'
    simp only at e ev
    rw [e, ev]
  case UR20_4DO_P_2A.dout.dout m m' =>
    have e := channels_unique doutRegs 1 (fun _ => rfl) dout_determines ws m.chParams
      m'.chParams 0 (hm.2.trans hm'.2.symm) h h'
    have ev := hm.1.trans hm'.1.symm
    cases m; cases m'
    simp only at e ev
    rw [e, ev]
  case UR20_8DO_P.dout.dout m m' =>
    have e := channels_unique doutRegs 1 (fun _ => rfl) dout_determines ws m.chParams
      m'.chParams 0 (hm.2.trans hm'.2.symm) h h'
    have ev := hm.1.trans hm'.1.symm
    cases m; cases m'
    simp only at e ev
    rw [e, ev]
  case UR20_4RO_CO_255.ro.ro m m' =>
    have e := channels_unique doutRegs 1 (fun _ => rfl) dout_determines ws m.chParams
      m'.chParams 0 (hm.trans hm'.symm) h h'
    cases m; cases m'
    simp only at e
    rw [e]
  case UR20_4AO_UI_16.ao.ao m m' =>
    have e := channels_unique aoRegs 3 (fun _ => rfl) ao_determines ws m.chParams
      m'.chParams 0 (hm.trans hm'.symm) h h'
    cases m; cases m'
    simp only at e
    rw [e]
  case UR20_4AO_UI_16_DIAG.aoDiag.aoDiag m m' =>
    have e := channels_unique aoDiagRegs 4 (fun _ => rfl) aoDiag_determines ws m.chParams
      m'.chParams 0 (hm.trans hm'.symm) h h'
    cases m; cases m'
    simp only at e
    rw [e]
  case UR20_4AI_RTD_DIAG.rtd.rtd m m' =>
    have e0 : m.temperatureUnit = m'.temperatureUnit := at_holds h.1 h'.1
    have e := channels_unique rtdRegs 7 (fun _ => rfl) rtd_determines ws m.chParams
      m'.chParams 1 (hm.trans hm'.symm) h.2 h'.2
    cases m; cases m'
    simp only at e e0
    rw [e, e0]
  case UR20_4AI_UI_16_DIAG.aiDiag.aiDiag m m' =>
    have e0 : m.frequencySuppression = m'.frequencySuppression := at_holds h.1 h'.1
    have e := channels_unique aiDiagRegs 5 (fun _ => rfl) aiDiag_determines ws m.chParams
      m'.chParams 1 (hm.trans hm'.symm) h.2 h'.2
    cases m; cases m'
    simp only at e e0
    rw [e, e0]
  case UR20_4AI_UI_12.ai.ai m m' =>
    have e0 : m.frequencySuppression = m'.frequencySuppression := at_holds h.1 h'.1
    have e := channels_unique aiRegs 2 (fun _ => rfl) ai_determines ws m.chParams
      m'.chParams 1 (hm.2.trans hm'.2.symm) h.2 h'.2
    have ev := hm.1.trans hm'.1.symm
    cases m; cases m'
    simp only at e e0 ev
    rw [e, e0, ev]
  case UR20_4AI_UI_16.ai.ai m m' =>
    have e0 : m.frequencySuppression = m'.frequencySuppression := at_holds h.1 h'.1
    have e := channels_unique aiRegs 2 (fun _ => rfl) ai_determines ws m.chParams
      m'.chParams 1 (hm.2.trans hm'.2.symm) h.2 h'.2
    have ev := hm.1.trans hm'.1.symm
    cases m; cases m'
    simp only at e e0 ev
    rw [e, e0, ev]
  case UR20_8AI_I_16_DIAG_HD.aiI.aiI m m' =>
    have e0 : m.frequencySuppression = m'.frequencySuppression := at_holds h.1 h'.1
    have e := channels_unique aiIRegs 4 (fun _ => rfl) aiI_determines ws m.chParams
      m'.chParams 1 (hm.trans hm'.symm) h.2 h'.2
    cases m; cases m'
    simp only at e e0
    rw [e, e0]
  case UR20_4AI_TC_DIAG.tc.tc m m' =>
    have e0 : m.temperatureUnit = m'.temperatureUnit := at_holds h.1 h'.1
    have e := channels_unique tcRegs 7 (fun _ => rfl) tc_determines ws m.chParams.toList
      m'.chParams.toList 1 (by simp) h.2 h'.2
    rw [Vector.toList_inj] at e
    cases m; cases m'
    simp only at e e0
    rw [e, e0]
  case UR20_2FCNT_100.fcnt.fcnt m m' =>
    have e := channels_unique fcntRegs 1 (fun _ => rfl) fcnt_determines ws m.chParams
      m'.chParams 0 (hm.trans hm'.symm) h h'
    cases m; cases m'
    simp only at e
    rw [e]
  case UR20_1COM_232_485_422.com.com m m' =>
    have e0 : m.processDataLen = m'.processDataLen := at_holds h.1 h'.1
    have e := channels_unique comRegs 9 (fun _ => rfl) com_determines ws m.chParams
      m'.chParams 1 (hm.trans hm'.symm) h.2 h'.2
    cases m; cases m'
    simp only at e e0
    rw [e, e0]

theorem settings_within (t : ModuleType) (ms : List Nat) (ht : maxCodes t = some ms)
    (ws : List Word) (m : Module) (hm : IsCreated t m) (h : Fits ws 0 (registers m)) :
    Within ws 0 ms := by
  cases t <;> simp only [maxCodes, Option.some.injEq, reduceCtorEq] at ht <;> subst ht <;>
    cases m <;> simp only [IsCreated] at hm
  all_goals try trivial
  case UR20_4DI_P.di m =>
    have := channels_bounded diRegs _ (fun _ => rfl) di_bounded ws m.chParams 0 h
    rw [hm.2] at this
    exact this
  case UR20_8DI_P_2W.di m =>
    have := channels_bounded diRegs _ (fun _ => rfl) di_bounded ws m.chParams 0 h
    rw [hm.2] at this
    exact this
  case UR20_4DO_P.dout m =>
    have := channels_bounded doutRegs _ (fun _ => rfl) dout_bounded ws m.chParams 0 h
    rw [hm.2] at this
    exact this
  case UR20_4DO_P_2A.dout m =>
    have := channels_bounded doutRegs _ (fun _ => rfl) dout_bounded ws m.chParams 0 h
    rw [hm.2] at this
    exact this
  case UR20_8DO_P.dout m =>
    have := channels_bounded doutRegs _ (fun _ => rfl) dout_bounded ws m.chParams 0 h
    rw [hm.2] at this
    exact this
  case UR20_4RO_CO_255.ro m =>
    have := channels_bounded doutRegs _ (fun _ => rfl) dout_bounded ws m.chParams 0 h
    rw [hm] at this
    exact this
  case UR20_4AO_UI_16.ao m =>
    have := channels_bounded aoRegs _ (fun _ => rfl) ao_bounded ws m.chParams 0 h
    rw [hm] at this
    exact this
  case UR20_4AO_UI_16_DIAG.aoDiag m =>
    have := channels_bounded aoDiagRegs _ (fun _ => rfl) aoDiag_bounded ws m.chParams 0 h
    rw [hm] at this
    exact this
  case UR20_4AI_RTD_DIAG.rtd m =>
    have := channels_bounded rtdRegs _ (fun _ => rfl) rtd_bounded ws m.chParams 1 h.2
    rw [hm] at this
    exact ⟨le_holds h.1, this⟩
  case UR20_4AI_UI_16_DIAG.aiDiag m =>
    have := channels_bounded aiDiagRegs _ (fun _ => rfl) aiDiag_bounded ws m.chParams 1 h.2
    rw [hm] at this
    exact ⟨le_holds h.1, this⟩
  case UR20_4AI_UI_12.ai m =>
    have := channels_bounded aiRegs _ (fun _ => rfl) ai_bounded ws m.chParams 1 h.2
    rw [hm.2] at this
    exact ⟨le_holds h.1, this⟩
  case UR20_4AI_UI_16.ai m =>
    have := channels_bounded aiRegs _ (fun _ => rfl) ai_bounded ws m.chParams 1 h.2
    rw [hm.2] at this
    exact ⟨le_holds h.1, this⟩
  case UR20_8AI_I_16_DIAG_HD.aiI m =>
    have := channels_bounded aiIRegs _ (fun _ => rfl) aiI_bounded ws m.chParams 1 h.2
    rw [hm] at this
    exact ⟨le_holds h.1, this⟩
  case UR20_4AI_TC_DIAG.tc m =>
    have := channels_bounded tcRegs _ (fun _ => rfl) tc_bounded ws m.chParams.toList 1 h.2
    rw [Vector.length_toList] at this
    exact ⟨le_holds h.1, this⟩
  case UR20_2FCNT_100.fcnt m =>
    have := channels_bounded fcntRegs _ (fun _ => rfl) fcnt_bounded ws m.chParams 0 h
    rw [hm] at this
    exact this
  case UR20_1COM_232_485_422.com m =>
    have := channels_bounded comRegs _ (fun _ => rfl) com_bounded ws m.chParams 1 h.2
    rw [hm] at this
    exact ⟨le_holds h.1, this⟩

theorem some_holds {α : Type} [Coded α] {m : Nat} [Small α m] (a : α) :
    ∃ w, holds a w := by
  have := Small.le (m := m) a
  have := Small.lt (α := α) (m := m)
  exact ⟨BitVec.ofNat 16 (code a), by rw [holds, BitVec.toNat_ofNat]; omega⟩

theorem some_char (a : Byte) : ∃ w, holdsChar a w :=
  ⟨a.setWidth 16, by rw [holdsChar, BitVec.toNat_setWidth]; omega⟩

theorem some_int (z : Int) (h : Fits16 z) : ∃ w, holdsInt z w := by
  unfold Fits16 at h
  exact ⟨BitVec.ofInt 16 z, by rw [holdsInt, BitVec.toInt_ofInt, Int.bmod_def]; omega⟩

theorem some_sub (rng : AnalogUIRange) (fmt : DataFormat) (a : F32) (h : SubstituteOk rng fmt a) :
    ∃ w, holdsSubstitute rng fmt a w := by
  unfold SubstituteOk at h
  unfold holdsSubstitute
  split at h
  · exact ⟨0, by rwa [if_pos ‹_›]⟩
  · obtain ⟨w, h⟩ := h
    exact ⟨w, by rwa [if_neg ‹_›]⟩

theorem int_fits (z : Int) (w : Word) (h : holdsInt z w) : Fits16 z := by
  rw [holdsInt] at h
  have := w.toInt_lt
  have := w.le_toInt
  unfold Fits16
  simp at *
  omega

theorem sub_ok (rng : AnalogUIRange) (fmt : DataFormat) (a : F32) (w : Word)
    (h : holdsSubstitute rng fmt a w) : SubstituteOk rng fmt a := by
  unfold holdsSubstitute at h
  unfold SubstituteOk
  split at h
  · rwa [if_pos ‹_›]
  · rw [if_neg ‹_›]; exact ⟨w, h⟩

theorem describable (ps : List (Word → Prop)) (h : ∀ P ∈ ps, ∃ w, P w) :
    ∃ ws : List Word, ps.length = ws.length ∧
      ∀ (i : Nat) (P : Word → Prop) (w : Word), ps[i]? = some P → ws[i]? = some w → P w := by
  induction ps with
  | nil => exact ⟨[], rfl, by simp⟩
  | cons p ps ih =>
    obtain ⟨ws, hl, hw⟩ := ih fun P hP => h P (List.mem_cons_of_mem _ hP)
    obtain ⟨w, hp⟩ := h p List.mem_cons_self
    refine ⟨w :: ws, by simp [hl], fun i P w' hP hw' => ?_⟩
    cases i with
    | zero =>
      simp only [List.getElem?_cons_zero, Option.some.injEq] at hP hw'
      rwa [← hP, ← hw']
    | succ i =>
      simp only [List.getElem?_cons_succ] at hP hw'
      exact hw i P w' hP hw'

theorem representable_iff (m : Module) : Representable m ↔ ∀ P ∈ registers m, ∃ w, P w := by
  have hI : ∀ z, (∃ w, holdsInt z w) ↔ Fits16 z :=
    fun z => ⟨fun ⟨w, h⟩ => int_fits z w h, some_int z⟩
  have hS : ∀ r f s, (∃ w, holdsSubstitute r f s w) ↔ SubstituteOk r f s :=
    fun r f s => ⟨fun ⟨w, h⟩ => sub_ok r f s w h, some_sub r f s⟩
  cases m <;>
    simp only [Representable, registers, List.forall_mem_cons, List.forall_mem_flatMap,
      List.not_mem_nil, false_implies, implies_true, and_true, true_and, some_holds, some_char, hI,
      hS]

end SettingsProof

open SettingsProof

/-- C96: for every parameter enumeration, `to_u16` and `from_u16` are inverse to each other and use
the documented codes. -/
theorem C96_codes :
    Codec DataFormat.toU16 DataFormat.fromU16 ∧
    Codec AnalogUIRange.toU16 AnalogUIRange.fromU16 ∧
    Codec AnalogIRange.toU16 AnalogIRange.fromU16 ∧
    Codec RtdRange.toU16 RtdRange.fromU16 ∧
    Codec TemperatureUnit.toU16 TemperatureUnit.fromU16 ∧
    Codec ConnectionType.toU16 ConnectionType.fromU16 ∧
    Codec ConversionTime.toU16 ConversionTime.fromU16 ∧
    Codec InputFilter.toU16 InputFilter.fromU16 ∧
    Codec InputDelay.toU16 InputDelay.fromU16 ∧
    Codec FrequencySuppression.toU16 FrequencySuppression.fromU16 ∧
    Codec TcRange.toU16 TcRange.fromU16 ∧
    Codec ColdJunctionCompensation.toU16 ColdJunctionCompensation.fromU16 ∧
    Codec OperatingMode.toU16 OperatingMode.fromU16 ∧
    Codec DataBits.toU16 DataBits.fromU16 ∧
    Codec BaudRate.toU16 BaudRate.fromU16 ∧
    Codec StopBit.toU16 StopBit.fromU16 ∧
    Codec Parity.toU16 Parity.fromU16 ∧
    Codec FlowControl.toU16 FlowControl.fromU16 ∧
    Codec ProcessDataLength.toU16 ProcessDataLength.fromU16 := by
  refine ⟨?_, ?_, ?_, ?_, ?_, ?_, ?_, ?_, ?_, ?_, ?_, ?_, ?_, ?_, ?_, ?_, ?_, ?_, ?_⟩ <;>
    refine codec_of _ _ (fun v => by cases v <;> rfl)
      (fun v w h => by cases v <;> cases h <;> rfl) (fun w v h => ?_) <;>
    simp only [DataFormat.fromU16, AnalogUIRange.fromU16, AnalogIRange.fromU16, RtdRange.fromU16,
      TemperatureUnit.fromU16, ConnectionType.fromU16, ConversionTime.fromU16,
      InputFilter.fromU16, InputDelay.fromU16, FrequencySuppression.fromU16, TcRange.fromU16,
      ColdJunctionCompensation.fromU16, OperatingMode.fromU16, DataBits.fromU16,
      BaudRate.fromU16, StopBit.fromU16, Parity.fromU16, FlowControl.fromU16,
      ProcessDataLength.fromU16] at h <;>
    split at h <;> cases h <;> assumption

example : (RtdRange.toU16 .R40).bind RtdRange.fromU16 = some .R40 ∧ RtdRange.fromU16 19 = none := by
  decide

/-- C96: writing registers that describe some settings of a module configures exactly these
settings. -/
theorem C96_configures (t : ModuleType) (ms : List Nat) (ht : maxCodes t = some ms)
    (m : Module) (hm : SettingsOf t m) (ws : List Word) (h : Describes ws m) :
    ws.length = ms.length ∧ Module.create t ws = .ok m := by
  have hi := (settings_isCreated t m).1 hm
  have hf := describes_fits ws m h
  have hl : ws.length = ms.length := by
    rw [← h.1]
    cases t <;> simp only [maxCodes, Option.some.injEq, reduceCtorEq] at ht <;> subst ht <;>
      cases m <;> simp only [IsCreated] at hi <;>
      simp [registers, List.length_flatMap, List.map_const', hi]
  have hc := create_checked t ms ht ws (by omega) (hl ▸ lengthOk_exact t ms ht)
  obtain ⟨m', hm'⟩ := hc.ok (settings_within t ms ht ws m hi hf)
  obtain ⟨h1, h2⟩ := hc.val m' hm'
  rw [settings_unique t ws m m' hi h1 hf h2]
  exact ⟨hl, hm'⟩

/-- C96: the modules that can be configured through the documented number of registers are exactly
the representable settings of the module type, and accepted registers describe the module. -/
theorem C96_range (t : ModuleType) (ms : List Nat) (ht : maxCodes t = some ms) (m : Module) :
    ((∃ ws : List Word, ws.length = ms.length ∧ Module.create t ws = .ok m) ↔
      SettingsOf t m ∧ Representable m) ∧
    ∀ ws : List Word, ws.length = ms.length →
      (Module.create t ws = .ok m ↔ SettingsOf t m ∧ Describes ws m) := by
  have hd : ∀ ws : List Word, ws.length = ms.length → Module.create t ws = .ok m →
      SettingsOf t m ∧ Describes ws m := by
    intro ws hl hm
    have hc := create_checked t ms ht ws (by omega) (hl ▸ lengthOk_exact t ms ht)
    exact ⟨(settings_isCreated t m).2 (hc.val m hm).1, C11_fields t ms ht ws hl m hm⟩
  refine ⟨⟨fun ⟨ws, hl, hm⟩ => ?_, fun ⟨hs, hr⟩ => ?_⟩, fun ws hl => ⟨hd ws hl, fun h =>
    (C96_configures t ms ht m h.1 ws h.2).2⟩⟩
  · obtain ⟨h1, h2⟩ := hd ws hl hm
    refine ⟨h1, (representable_iff m).2 fun P hP => ?_⟩
    obtain ⟨i, hi⟩ := List.getElem?_of_mem hP
    obtain ⟨w, _, hw⟩ := (fits_iff ws 0 _).1 (describes_fits ws m h2) i P hi
    exact ⟨w, hw⟩
  · obtain ⟨ws, h⟩ := describable _ ((representable_iff m).1 hr)
    exact ⟨ws, C96_configures t ms ht m hs ws h⟩

/-- A serial interface with 19200 baud, even parity and the usual flow control characters. -/
def exSettings : Module :=
  .com ⟨.SixteenBytes, [⟨.RS485, .EightBits, .Baud_19200, .OneBit, .Even, .XON_XOFF, 17, 19, true⟩]⟩

example : SettingsOf .UR20_1COM_232_485_422 exSettings ∧ Representable exSettings ∧
    Describes [1, 2, 7, 0, 1, 2, 1, 1, 17, 19] exSettings ∧
    Module.create .UR20_1COM_232_485_422 [1, 2, 7, 0, 1, 2, 1, 1, 17, 19] = .ok exSettings := by
  refine ⟨rfl, trivial, ⟨rfl, ?_⟩, by decide⟩
  intro i P w hP hw
  match i with
  | 0 | 1 | 2 | 3 | 4 | 5 | 6 | 7 | 8 | 9 => cases hP; cases hw; rfl
  | i + 10 => cases hP

/-- A temperature module whose limits are at the ends of the range, and a substitute value. -/
example : Representable (.rtd ⟨.Kelvin, List.replicate 4
      ⟨.PT100, .TwoWire, .ms240, true, true, 32767, -32768⟩⟩) ∧
    ¬ Representable (.rtd ⟨.Kelvin, List.replicate 4
      ⟨.PT100, .TwoWire, .ms240, true, true, 32768, 0⟩⟩) ∧
    Representable (.ao ⟨List.replicate 4 ⟨.S7, .mA0To20, .fin 10⟩⟩) ∧
    ¬ Representable (.ao ⟨List.replicate 4 ⟨.S7, .Disabled, .fin 10⟩⟩) := by
  simp only [Representable, List.forall_mem_replicate, Fits16, SubstituteOk]
  refine ⟨by decide, by decide, .inr ?_, by decide +kernel⟩
  rw [if_neg (by decide)]
  exact ⟨0x3600, by decide +kernel⟩

end Ur20
