import Verif.Lemmas.AnalogModules
import Verif.Props.Params

/-! # Analog values: C50 to C55 -/

namespace Ur20

open Spec F32

/-! ### C50, C51: decoding -/

/-- C50 for analog inputs: every channel gives the reading of its register. -/
theorem C50_inputs (t : ModuleType) (par : List Word) (m : Module)
    (hc : Module.create t par = .ok m) (ps : List (AnalogUIRange × DataFormat))
    (ha : analogInputs m = some ps) (ws : List Word) (hl : ws.length = ps.length) :
    ∃ vs, m.processInputData ws = .ok vs ∧ vs.length = ps.length ∧
      ∀ (i : Nat) w p, ws[i]? = some w → ps[i]? = some p →
        ∃ v, vs[i]? = some v ∧ AnalogReading p w v := by
  refine ⟨_, analogInputs_decode hc ha ws hl, by simp [hl], fun i w p hw hp => ?_⟩
  exact ⟨channelValue p w, List.getElem?_zipWith_eq_some.2 ⟨w, p, hw, hp, rfl⟩, reading p w⟩

/-- C50 for analog outputs read back from the process image. -/
theorem C50_outputs (t : ModuleType) (par : List Word) (m : Module)
    (hc : Module.create t par = .ok m) (ps : List (AnalogUIRange × DataFormat))
    (ha : analogOutputs m = some ps) (ws : List Word) (hl : ws.length = ps.length) :
    ∃ vs, m.processOutputData ws = .ok vs ∧ vs.length = ps.length ∧
      ∀ (i : Nat) w p, ws[i]? = some w → ps[i]? = some p →
        ∃ v, vs[i]? = some v ∧ AnalogReading p w v := by
  have h4 := (analogOutputs_length hc ha).1
  refine ⟨_, analogOutputs_decode hc ha ws (by omega), by simp [hl], fun i w p hw hp => ?_⟩
  exact ⟨channelValue p w, List.getElem?_zipWith_eq_some.2 ⟨w, p, hw, hp, rfl⟩, reading p w⟩

theorem channelValue_mono {p : AnalogUIRange × DataFormat} {w w' : Word} {q q' : F32}
    (h : w.toInt ≤ w'.toInt) (h1 : channelValue p w = .decimal32 q)
    (h2 : channelValue p w' = .decimal32 q') : F32Le q q' := by
  obtain ⟨r, f⟩ := p
  unfold channelValue at h1 h2
  rw [decode_eq] at h1 h2
  cases hs : uiScale r with
  | none => simp [hs, decimalOrDisabled] at h1
  | some s =>
    simp only [hs, Option.map_some, decimalOrDisabled, ChannelValue.decimal32.injEq] at h1 h2
    subst h1 h2
    exact decodedQ_mono (scale_cases hs) f h

/-- C51: a larger raw value never decodes to a smaller analog value, for inputs. -/
theorem C51_inputs (t : ModuleType) (par : List Word) (m : Module)
    (hc : Module.create t par = .ok m) (ps : List (AnalogUIRange × DataFormat))
    (ha : analogInputs m = some ps) (ws ws' : List Word) (vs vs' : List ChannelValue)
    (h : m.processInputData ws = .ok vs) (h' : m.processInputData ws' = .ok vs')
    (hl : ws.length = ps.length) (hl' : ws'.length = ps.length)
    (i : Nat) (w w' : Word) (hw : ws[i]? = some w) (hw' : ws'[i]? = some w')
    (hle : w.toInt ≤ w'.toInt) (q q' : F32) (hq : vs[i]? = some (.decimal32 q))
    (hq' : vs'[i]? = some (.decimal32 q')) : F32Le q q' := by
  rw [analogInputs_decode hc ha ws hl] at h
  rw [analogInputs_decode hc ha ws' hl'] at h'
  cases h
  cases h'
  obtain ⟨w1, p1, a1, a2, a3⟩ := List.getElem?_zipWith_eq_some.1 hq
  obtain ⟨w2, p2, b1, b2, b3⟩ := List.getElem?_zipWith_eq_some.1 hq'
  rw [hw] at a1
  rw [hw'] at b1
  rw [a2] at b2
  cases a1
  cases b1
  cases b2
  exact channelValue_mono hle a3 b3

/-- C51 for outputs read back. -/
theorem C51_outputs (t : ModuleType) (par : List Word) (m : Module)
    (hc : Module.create t par = .ok m) (ps : List (AnalogUIRange × DataFormat))
    (ha : analogOutputs m = some ps) (ws ws' : List Word) (vs vs' : List ChannelValue)
    (h : m.processOutputData ws = .ok vs) (h' : m.processOutputData ws' = .ok vs')
    (hl : ws.length = ps.length) (hl' : ws'.length = ps.length)
    (i : Nat) (w w' : Word) (hw : ws[i]? = some w) (hw' : ws'[i]? = some w')
    (hle : w.toInt ≤ w'.toInt) (q q' : F32) (hq : vs[i]? = some (.decimal32 q))
    (hq' : vs'[i]? = some (.decimal32 q')) : F32Le q q' := by
  have h4 := (analogOutputs_length hc ha).1
  rw [analogOutputs_decode hc ha ws (by omega)] at h
  rw [analogOutputs_decode hc ha ws' (by omega)] at h'
  cases h
  cases h'
  obtain ⟨w1, p1, a1, a2, a3⟩ := List.getElem?_zipWith_eq_some.1 hq
  obtain ⟨w2, p2, b1, b2, b3⟩ := List.getElem?_zipWith_eq_some.1 hq'
  rw [hw] at a1
  rw [hw'] at b1
  rw [a2] at b2
  cases a1
  cases b1
  cases b2
  exact channelValue_mono hle a3 b3

/-! ### Examples -/

/-- Parameters of an analog output module: 0 to 20 mA in S7, 4 to 20 mA in S7, 0 to 10 V in S5 and a
disabled channel. -/
def exAoParams : List Word :=
  [1#16, 0#16, 0#16, 1#16, 1#16, 0#16, 0#16, 2#16, 0#16, 1#16, 8#16, 0#16]

def exAo : Ao.Mod :=
  ⟨[⟨.S7, .mA0To20, .fin 0⟩, ⟨.S7, .mA4To20, .fin 4⟩, ⟨.S5, .V0To10, .fin 0⟩, ⟨.S7, .Disabled, .fin 0⟩]⟩

theorem exAo_create : Module.create .UR20_4AO_UI_16 exAoParams = .ok (.ao exAo) := by
  decide +kernel

def exAoChannels : List (AnalogUIRange × DataFormat) :=
  [(.mA0To20, .S7), (.mA4To20, .S7), (.V0To10, .S5), (.Disabled, .S7)]

example : ∃ vs, (Module.ao exAo).processOutputData [0x3600#16, 0x3600#16, 0x2000#16, 7#16] = .ok vs ∧
    vs.length = 4 ∧ ∀ (i : Nat) w p, [0x3600#16, 0x3600#16, 0x2000#16, 7#16][i]? = some w →
      exAoChannels[i]? = some p → ∃ v, vs[i]? = some v ∧ AnalogReading p w v :=
  C50_outputs _ _ _ exAo_create exAoChannels rfl _ rfl

example : (Module.ao exAo).processOutputData [0x3600#16, 0x3600#16, 0x2000#16, 7#16] =
    .ok [.decimal32 (.fin 10), .decimal32 (.fin 12), .decimal32 (.fin 5), .disabled] := by
  decide +kernel

/-! ### C52: encoding -/

theorem encodedAs (p : AnalogUIRange × DataFormat) (v : F32) :
    EncodedAs p v (analogUiValueToU16 v p.1 p.2).toInt := by
  obtain ⟨r, f⟩ := p
  unfold EncodedAs
  simp only
  cases hs : uiScale r with
  | none =>
    cases r <;> simp only [uiScale, reduceCtorEq] at hs
    rw [encode_disabled]
    rfl
  | some s =>
    obtain ⟨h1, h2, h3⟩ := encode_special hs f
    refine ⟨?_, ?_, ?_, ?_⟩
    · rintro rfl; exact h1
    · rintro rfl; exact h2
    · rintro rfl; exact h3
    · rintro q rfl hq
      have hr := representable_of_single hq
      exact ⟨encode_high hs f hr, encode_low hs f hr, encode_accuracy hs f hr⟩

theorem encode_numbers {t : ModuleType} {par : List Word} {m : Module}
    (hc : Module.create t par = .ok m) {ps : List (AnalogUIRange × DataFormat)}
    (ha : analogOutputs m = some ps) (l : List F32) (hl : l.length = 4) :
    m.processOutputValues (l.map .decimal32) =
      .ok (List.zipWith (fun v p => analogUiValueToU16 v p.1 p.2) l ps) := by
  rw [analogOutputs_encode hc ha _ (by simp [hl]), List.zip_map_left, mapRes_map]
  have : (fun x : F32 × (AnalogUIRange × DataFormat) =>
      valueToU16 (Prod.map ChannelValue.decimal32 id x).1 (Prod.map ChannelValue.decimal32 id x).2.1
        (Prod.map ChannelValue.decimal32 id x).2.2) =
      fun x => .ok (analogUiValueToU16 x.1 x.2.1 x.2.2) := rfl
  rw [this, mapRes_pure]
  simp [List.zip, List.map_zipWith]

/-- C52: four numbers, whatever they are, are encoded; NaN gives 0, numbers beyond the 16-bit range
saturate, and all others lose their fraction. -/
theorem C52_encode (t : ModuleType) (par : List Word) (m : Module)
    (hc : Module.create t par = .ok m) (ps : List (AnalogUIRange × DataFormat))
    (ha : analogOutputs m = some ps) (l : List F32) (hl : l.length = 4) :
    ∃ ws, m.processOutputValues (l.map .decimal32) = .ok ws ∧ ws.length = 4 ∧ ps.length = 4 ∧
      ∀ (i : Nat) v p, l[i]? = some v → ps[i]? = some p →
        ∃ w : Word, ws[i]? = some w ∧ EncodedAs p v w.toInt := by
  have h4 := (analogOutputs_length hc ha).1
  refine ⟨_, encode_numbers hc ha l hl, by simp [hl, h4], h4, fun i v p hv hp => ?_⟩
  exact ⟨_, List.getElem?_zipWith_eq_some.2 ⟨v, p, hv, hp, rfl⟩, encodedAs p v⟩

/-- C52: a larger number never gives a smaller raw value. -/
theorem C52_monotone (t : ModuleType) (par : List Word) (m : Module)
    (hc : Module.create t par = .ok m) (ps : List (AnalogUIRange × DataFormat))
    (ha : analogOutputs m = some ps) (l l' : List F32) (hl : l.length = 4) (hl' : l'.length = 4)
    (ws ws' : List Word) (h : m.processOutputValues (l.map .decimal32) = .ok ws)
    (h' : m.processOutputValues (l'.map .decimal32) = .ok ws') (i : Nat) (v v' : F32) (w w' : Word)
    (hv : l[i]? = some v) (hv' : l'[i]? = some v') (hw : ws[i]? = some w) (hw' : ws'[i]? = some w')
    (hle : F32Le v v') : w.toInt ≤ w'.toInt := by
  rw [encode_numbers hc ha l hl] at h
  rw [encode_numbers hc ha l' hl'] at h'
  cases h
  cases h'
  obtain ⟨v1, p1, a1, a2, rfl⟩ := List.getElem?_zipWith_eq_some.1 hw
  obtain ⟨v2, p2, b1, b2, rfl⟩ := List.getElem?_zipWith_eq_some.1 hw'
  rw [hv] at a1
  rw [hv'] at b1
  rw [a2] at b2
  cases a1
  cases b1
  cases b2
  exact encode_mono _ _ hle

example : (Module.ao exAo).processOutputValues
    ([.fin 10, .inf true, .fin (1 / 2), .nan].map .decimal32) =
    .ok [0x3600#16, 0x8000#16, 819#16, 0#16] := by decide +kernel

/-! ### C53, C54, C55: decoding and encoding -/

/-- One decoding and encoding of the registers of a module. -/
def Recoded (m : Module) (ws ws' : List Word) : Prop :=
  ∃ vs, m.processOutputData ws = .ok vs ∧ m.processOutputValues vs = .ok ws'

/-- The register of one channel after decoding and encoding. -/
def recode (p : AnalogUIRange × DataFormat) (w : Word) : Word :=
  match uiScale p.1 with
  | none => 0#16
  | some s => analogUiValueToU16 (.fin (decodedQ s p.2 w.toInt)) p.1 p.2

theorem recoded_eq {t : ModuleType} {par : List Word} {m : Module}
    (hc : Module.create t par = .ok m) {ps : List (AnalogUIRange × DataFormat)}
    (ha : analogOutputs m = some ps) (ws ws' : List Word) (hl : ws.length = 4) :
    Recoded m ws ws' ↔ ws' = List.zipWith (fun w p => recode p w) ws ps := by
  obtain ⟨h4, -⟩ := analogOutputs_length hc ha
  have key : m.processOutputValues (List.zipWith (fun w p => channelValue p w) ws ps) =
      .ok (List.zipWith (fun w p => recode p w) ws ps) := by
    rw [analogOutputs_encode hc ha _ (by simp [hl, h4]), mapRes_eq_ok, List.forall₂_iff_get]
    refine ⟨by simp [hl, h4], fun i h1 h2 => ?_⟩
    simp only [List.get_eq_getElem, List.getElem_zip, List.getElem_zipWith]
    generalize ws[i]'_ = w
    generalize ps[i]'_ = p
    obtain ⟨r, f⟩ := p
    unfold channelValue recode
    simp only
    rw [decode_eq]
    cases hs : uiScale r with
    | none => rfl
    | some s => rfl
  unfold Recoded
  rw [analogOutputs_decode hc ha ws hl]
  constructor
  · rintro ⟨vs, h1, h2⟩
    cases h1
    rw [key] at h2
    exact (Res.ok.inj h2).symm
  · rintro rfl
    exact ⟨_, rfl, key⟩

/-- The span of every range is a small integer. -/
theorem span_int {r : AnalogUIRange} {s : ℚ × ℚ} (hs : uiScale r = some s) :
    ∃ n : ℤ, s.2 - s.1 = n ∧ |n| ≤ 20 := by
  rcases scale_cases hs with h | h | h | h | h | h <;> subst h
  · exact ⟨20, by norm_num, by norm_num⟩
  · exact ⟨16, by norm_num, by norm_num⟩
  · exact ⟨10, by norm_num, by norm_num⟩
  · exact ⟨5, by norm_num, by norm_num⟩
  · exact ⟨4, by norm_num, by norm_num⟩
  · exact ⟨8, by norm_num, by norm_num⟩

theorem recode_S5 {r : AnalogUIRange} (hr : r ≠ .Disabled) (w : Word) : recode (r, .S5) w = w := by
  unfold recode
  simp only
  cases hs : uiScale r with
  | none => cases r <;> simp [uiScale] at hs hr
  | some s =>
    have hx : |w.toInt| ≤ 32768 := by exact_mod_cast word_abs w
    obtain ⟨n, hn, hnb⟩ := span_int hs
    refine (round_trip_exact hs .S5 w (w.toInt * n) ?_ ?_).2
    · rw [abs_mul]
      have := mul_le_mul hx hnb (abs_nonneg n) (by norm_num)
      linarith
    · rw [hn]
      simp only [fullScale]
      push_cast
      norm_num

/-- C53: in format S5, decoding and encoding returns the register, for every enabled range. -/
theorem C53_s5_exact (t : ModuleType) (par : List Word) (m : Module)
    (hc : Module.create t par = .ok m) (ps : List (AnalogUIRange × DataFormat))
    (ha : analogOutputs m = some ps) (ws : List Word) (hl : ws.length = 4) :
    ∃ ws', Recoded m ws ws' ∧ ws'.length = 4 ∧
      ∀ (i : Nat) r, ps[i]? = some (r, .S5) → r ≠ .Disabled → ws'[i]? = ws[i]? := by
  obtain ⟨h4, -⟩ := analogOutputs_length hc ha
  refine ⟨_, (recoded_eq hc ha ws _ hl).2 rfl, by simp [hl, h4], fun i r hp hr => ?_⟩
  obtain ⟨hi, -⟩ := List.getElem?_eq_some_iff.1 hp
  obtain ⟨w, hw⟩ : ∃ w, ws[i]? = some w := ⟨ws[i]'(by omega), List.getElem?_eq_getElem _⟩
  rw [hw, List.getElem?_zipWith_eq_some.2 ⟨w, _, hw, hp, rfl⟩, recode_S5 hr]

example : (exAoChannels[2]? = some (AnalogUIRange.V0To10, DataFormat.S5)) ∧
    Recoded (.ao exAo) [45#16, 90#16, 0xABCD#16, 7#16] [44#16, 90#16, 0xABCD#16, 0#16] :=
  ⟨rfl, _, rfl, by decide +kernel⟩

/-- C54 as listed: in format S7, decoding and encoding returns the register. -/
def C54_statement : Prop :=
  ∀ (t : ModuleType) (par : List Word) (m : Module), Module.create t par = .ok m →
    ∀ ps : List (AnalogUIRange × DataFormat), analogOutputs m = some ps →
    ∀ ws ws' : List Word, ws.length = 4 → Recoded m ws ws' →
      ∀ (i : Nat) r, ps[i]? = some (r, .S7) → r ≠ .Disabled → ws'[i]? = ws[i]?

/-- C54 is false: 45 becomes 44 in the range 0 to 20 mA. -/
theorem C54_statement_false : ¬ C54_statement := by
  intro h
  have h1 : Recoded (.ao exAo) [45#16, 90#16, 0xABCD#16, 7#16] [44#16, 90#16, 0xABCD#16, 0#16] :=
    ⟨_, rfl, by decide +kernel⟩
  have := h _ _ _ exAo_create exAoChannels rfl _ _ rfl h1 0 .mA0To20 rfl (by simp)
  simp at this

theorem recode_27 {r : AnalogUIRange} (hr : r ≠ .Disabled) (f : DataFormat) (w : Word)
    (h27 : (27 : ℤ) ∣ w.toInt) : recode (r, f) w = w := by
  cases f with
  | S5 => exact recode_S5 hr w
  | S7 =>
    unfold recode
    simp only
    cases hs : uiScale r with
    | none => cases r <;> simp [uiScale] at hs hr
    | some s =>
      have hx : |w.toInt| ≤ 32768 := by exact_mod_cast word_abs w
      obtain ⟨n, hn, hnb⟩ := span_int hs
      obtain ⟨y, hy⟩ := h27
      refine (round_trip_exact hs .S7 w (16 * y * n) ?_ ?_).2
      · have hyb : |16 * y| ≤ 32768 := by
          rw [abs_le] at hx ⊢
          constructor <;> omega
        rw [abs_mul]
        have := mul_le_mul hyb hnb (abs_nonneg n) (by norm_num)
        linarith
      · rw [hn, hy]
        simp only [fullScale]
        push_cast
        ring

/-- C54 for the multiples of 27, in both formats. -/
theorem C54_multiples_partial (t : ModuleType) (par : List Word) (m : Module)
    (hc : Module.create t par = .ok m) (ps : List (AnalogUIRange × DataFormat))
    (ha : analogOutputs m = some ps) (ws ws' : List Word) (hl : ws.length = 4)
    (h : Recoded m ws ws') (i : Nat) (r : AnalogUIRange) (f : DataFormat) (w : Word)
    (hp : ps[i]? = some (r, f)) (hr : r ≠ .Disabled) (hw : ws[i]? = some w)
    (h27 : (27 : ℤ) ∣ w.toInt) : ws'[i]? = some w := by
  rw [(recoded_eq hc ha ws ws' hl).1 h, List.getElem?_zipWith_eq_some.2 ⟨w, _, hw, hp, rfl⟩,
    recode_27 hr f w h27]

theorem recode_step {r : AnalogUIRange} (hr : r ≠ .Disabled) (f : DataFormat) (w : Word) :
    (0 < w.toInt → (recode (r, f) w).toInt = w.toInt ∨ (recode (r, f) w).toInt = w.toInt - 1) ∧
    (w.toInt < 0 → (recode (r, f) w).toInt = w.toInt ∨ (recode (r, f) w).toInt = w.toInt + 1) ∧
    (w.toInt = 0 → (recode (r, f) w).toInt = 0) := by
  cases hs : uiScale r with
  | none => cases r <;> simp [uiScale] at hs hr
  | some s =>
    refine round_trip_step hs f w _ ?_
    unfold recode
    simp only [hs]

/-- C54 up to one: decoding and encoding any register changes it by at most one, towards zero. -/
theorem C54_step_partial (t : ModuleType) (par : List Word) (m : Module)
    (hc : Module.create t par = .ok m) (ps : List (AnalogUIRange × DataFormat))
    (ha : analogOutputs m = some ps) (ws ws' : List Word) (hl : ws.length = 4)
    (h : Recoded m ws ws') (i : Nat) (r : AnalogUIRange) (f : DataFormat) (w : Word)
    (hp : ps[i]? = some (r, f)) (hr : r ≠ .Disabled) (hw : ws[i]? = some w) :
    ∃ w' : Word, ws'[i]? = some w' ∧
      (0 < w.toInt → w'.toInt = w.toInt ∨ w'.toInt = w.toInt - 1) ∧
      (w.toInt < 0 → w'.toInt = w.toInt ∨ w'.toInt = w.toInt + 1) ∧
      (w.toInt = 0 → w'.toInt = 0) := by
  refine ⟨recode (r, f) w, ?_, recode_step hr f w⟩
  rw [(recoded_eq hc ha ws ws' hl).1 h, List.getElem?_zipWith_eq_some.2 ⟨w, _, hw, hp, rfl⟩]

/-- The raw values a value can drift to: those between it and the next multiple of 27 towards
zero. -/
theorem recode_drift {r : AnalogUIRange} (hr : r ≠ .Disabled) (f : DataFormat) (w : Word) (x0 : ℤ)
    (h : (0 ≤ x0 → 27 * (x0 / 27) ≤ w.toInt ∧ w.toInt ≤ x0) ∧
      (x0 ≤ 0 → x0 ≤ w.toInt ∧ w.toInt ≤ -(27 * (-x0 / 27)))) :
    (0 ≤ x0 → 27 * (x0 / 27) ≤ (recode (r, f) w).toInt ∧ (recode (r, f) w).toInt ≤ x0) ∧
      (x0 ≤ 0 → x0 ≤ (recode (r, f) w).toInt ∧ (recode (r, f) w).toInt ≤ -(27 * (-x0 / 27))) := by
  by_cases h27 : (27 : ℤ) ∣ w.toInt
  · rw [recode_27 hr f w h27]
    exact h
  · obtain ⟨a, b, c⟩ := recode_step hr f w
    have hne : w.toInt ≠ 0 := by intro h0; rw [h0] at h27; exact h27 (dvd_zero _)
    constructor
    · intro h0
      have := h.1 h0
      by_cases hp : 0 < w.toInt
      · rcases a hp with e | e <;> omega
      · omega
    · intro h0
      have := h.2 h0
      by_cases hp : w.toInt < 0
      · rcases b hp with e | e <;> omega
      · omega

theorem recode_drift_step {r : AnalogUIRange} (hr : r ≠ .Disabled) (f : DataFormat) (w : Word)
    (x0 : ℤ) (n : Nat)
    (h : (0 ≤ x0 → 27 * (x0 / 27) ≤ w.toInt ∧ w.toInt ≤ x0 ∧ x0 - n ≤ w.toInt) ∧
      (x0 ≤ 0 → x0 ≤ w.toInt ∧ w.toInt ≤ -(27 * (-x0 / 27)) ∧ w.toInt ≤ x0 + n)) :
    (0 ≤ x0 → 27 * (x0 / 27) ≤ (recode (r, f) w).toInt ∧ (recode (r, f) w).toInt ≤ x0 ∧
        x0 - (n + 1 : Nat) ≤ (recode (r, f) w).toInt) ∧
      (x0 ≤ 0 → x0 ≤ (recode (r, f) w).toInt ∧ (recode (r, f) w).toInt ≤ -(27 * (-x0 / 27)) ∧
        (recode (r, f) w).toInt ≤ x0 + (n + 1 : Nat)) := by
  obtain ⟨h2, h3⟩ := h
  have hd := recode_drift hr f w x0
    ⟨fun h0 => ⟨(h2 h0).1, (h2 h0).2.1⟩, fun h0 => ⟨(h3 h0).1, (h3 h0).2.1⟩⟩
  obtain ⟨a, b, c⟩ := recode_step hr f w
  constructor
  · intro h0
    have e := h2 h0
    refine ⟨(hd.1 h0).1, (hd.1 h0).2, ?_⟩
    rcases lt_trichotomy w.toInt 0 with hw' | hw' | hw'
    · omega
    · rw [c hw']; push_cast; omega
    · rcases a hw' with e' | e' <;> rw [e'] <;> push_cast <;> omega
  · intro h0
    have e := h3 h0
    refine ⟨(hd.2 h0).1, (hd.2 h0).2, ?_⟩
    rcases lt_trichotomy w.toInt 0 with hw' | hw' | hw'
    · rcases b hw' with e' | e' <;> rw [e'] <;> push_cast <;> omega
    · rw [c hw']; push_cast; omega
    · omega

/-- C55: over any number of decodings and encodings a value only moves towards zero, keeps its
sign, and never gets past the next multiple of 27 (and so never moves by more than 26 in total). -/
theorem C55_drift (t : ModuleType) (par : List Word) (m : Module)
    (hc : Module.create t par = .ok m) (ps : List (AnalogUIRange × DataFormat))
    (ha : analogOutputs m = some ps) (ws : Nat → List Word) (hl : (ws 0).length = 4)
    (h : ∀ n, Recoded m (ws n) (ws (n + 1))) (i : Nat) (r : AnalogUIRange) (f : DataFormat)
    (hp : ps[i]? = some (r, f)) (hr : r ≠ .Disabled) (w0 : Word) (hw : (ws 0)[i]? = some w0)
    (n : Nat) :
    ∃ w : Word, (ws n)[i]? = some w ∧
      (0 ≤ w0.toInt → 27 * (w0.toInt / 27) ≤ w.toInt ∧ w.toInt ≤ w0.toInt ∧ w0.toInt - n ≤ w.toInt) ∧
      (w0.toInt ≤ 0 → w0.toInt ≤ w.toInt ∧ w.toInt ≤ -(27 * (-w0.toInt / 27)) ∧
        w.toInt ≤ w0.toInt + n) := by
  have hlen : ∀ n, (ws n).length = 4 := by
    intro n
    induction n with
    | zero => exact hl
    | succ n ih =>
      rw [(recoded_eq hc ha _ _ ih).1 (h n)]
      simp [ih, (analogOutputs_length hc ha).1]
  induction n with
  | zero => exact ⟨w0, hw, by intro; omega, by intro; omega⟩
  | succ n ih =>
    obtain ⟨w, h1, h2, h3⟩ := ih
    refine ⟨recode (r, f) w, ?_, ?_⟩
    · rw [(recoded_eq hc ha _ _ (hlen n)).1 (h n), List.getElem?_zipWith_eq_some.2 ⟨w, _, h1, hp, rfl⟩]
    · exact recode_drift_step hr f w w0.toInt n ⟨h2, h3⟩

/-! ### C64: substitute values -/

theorem reading_substitute {w : Word} {r : AnalogUIRange} {f : DataFormat} {x : F32}
    (h : r = .Disabled → x = .fin 0) (h' : r ≠ .Disabled → u16ToAnalogUiValue w r f = some x) :
    (r = .Disabled → x = .fin 0) ∧ (r ≠ .Disabled → AnalogReading (r, f) w (.decimal32 x)) := by
  refine ⟨h, fun hr => ?_⟩
  have := reading (r, f) w
  unfold channelValue at this
  simp only at this
  rw [h' hr] at this
  exact this

/-- C64: the substitute value of an analog output channel is the reading of its third register, or
zero if the channel is disabled. -/
theorem C64_substitute (ws : List Word) (hl : ws.length = 12) (m : Ao.Mod)
    (hm : Module.create .UR20_4AO_UI_16 ws = .ok (.ao m)) (i : Nat) (c : Ao.ChannelParameters)
    (hc : m.chParams[i]? = some c) :
    ∃ w : Word, ws[3 * i + 2]? = some w ∧
      (c.outputRange = .Disabled → c.substituteValue = .fin 0) ∧
      (c.outputRange ≠ .Disabled →
        AnalogReading (c.outputRange, c.dataFormat) w (.decimal32 c.substituteValue)) := by
  obtain ⟨w, h1, h2, h3⟩ := substitute_field ws hl m hm i c hc
  exact ⟨w, h1, reading_substitute h2 h3⟩

/-- C64 for the module with diagnosis. -/
theorem C64_substitute_diag (ws : List Word) (hl : ws.length = 16) (m : AoDiag.Mod)
    (hm : Module.create .UR20_4AO_UI_16_DIAG ws = .ok (.aoDiag m)) (i : Nat)
    (c : AoDiag.ChannelParameters) (hc : m.chParams[i]? = some c) :
    ∃ w : Word, ws[4 * i + 2]? = some w ∧
      (c.outputRange = .Disabled → c.substituteValue = .fin 0) ∧
      (c.outputRange ≠ .Disabled →
        AnalogReading (c.outputRange, c.dataFormat) w (.decimal32 c.substituteValue)) := by
  obtain ⟨w, h1, h2, h3⟩ := substitute_field_diag ws hl m hm i c hc
  exact ⟨w, h1, reading_substitute h2 h3⟩

example : Module.create .UR20_4AO_UI_16 [0, 0, 8192, 0, 8, 5, 1, 3, 0, 1, 2, 0x9400] =
    .ok (.ao ⟨[⟨.S5, .mA0To20, .fin 10⟩, ⟨.S5, .Disabled, .fin 0⟩, ⟨.S7, .VMinus10To10, .fin 0⟩,
      ⟨.S7, .V0To10, .fin (-10)⟩]⟩) := by decide +kernel

end Ur20
