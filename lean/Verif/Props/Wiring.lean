import Verif.Spec.Wiring
import Verif.Props.Transfers

/-! # Outputs wired to inputs: C114 -/

namespace Ur20

open Spec Com Coupler

theorem set_write {oc : Bool} {cfg : CouplerConfig} {c : Coupler} (hr : ReachableFrom oc cfg c)
    {j : Nat} {t : ModuleType} {par : List Word} {o i : Word} (hcfg : ConfiguredAt cfg j t par o i)
    {ch : Nat} (hch : ch < outputChannels t) (v : ChannelValue) :
    ReachableFrom oc cfg (c.setOutput ⟨j, ch⟩ v).1 ∧
      (c.setOutput ⟨j, ch⟩ v).1.write ⟨j, ch⟩ = some v := by
  refine ⟨reachable_run hr [.setOutput ⟨j, ch⟩ v], ?_⟩
  have h : c.isValidAddr ⟨j, ch⟩ = true := valid_output hr hcfg hch
  simp [setOutput, h, Coupler.insert]

/-- The physical value of the register of an encoded number is close to the number. -/
theorem encoded_close {r : AnalogUIRange} {f : DataFormat} {s : ℚ × ℚ} (hs : uiScale r = some s)
    {x : ℚ} (hx : Single x) (hr : |exactRaw s f x| ≤ 32767) {w : Word}
    (he : EncodedAs (r, f) (.fin x) w.toInt) :
    |physical s f w.toInt - x| ≤ 17 / 16 * rawUnit s f := by
  simp only [EncodedAs, hs] at he
  obtain ⟨-, -, he⟩ := he.2.2.2 x rfl hx
  obtain ⟨h1, -⟩ := he (by linarith [(abs_le.1 hr).1]) (by linarith [(abs_le.1 hr).2])
  have hs1 : 0 < s.2 - s.1 := by
    cases r <;> simp only [uiScale] at hs <;> cases hs <;> norm_num
  have hf : 0 < fullScale f := by cases f <;> norm_num [fullScale]
  have hst0 : 0 < rawUnit s f := div_pos hs1 hf
  have e : physical s f w.toInt - x = ((w.toInt : ℚ) - exactRaw s f x) * rawUnit s f := by
    simp only [physical, exactRaw, rawUnit]
    have := hf.ne'
    have := hs1.ne'
    field_simp
    ring
  rw [e, abs_mul, abs_of_pos hst0]
  exact mul_le_mul_of_nonneg_right (by linarith) hst0.le

/-- A reading is close to the physical value of the register. -/
theorem reading_close {r : AnalogUIRange} {f : DataFormat} {s : ℚ × ℚ} (hs : uiScale r = some s)
    {w : Word} {v : ChannelValue} (hv : AnalogReading (r, f) w v) :
    ∃ q, v = .decimal32 (.fin q) ∧ |q - physical s f w.toInt| ≤ rawUnit s f / 128 := by
  simp only [AnalogReading, hs] at hv
  obtain ⟨q, rfl, -, -, -, hq⟩ := hv
  refine ⟨q, rfl, hq.trans ?_⟩
  have hw : |(w.toInt : ℚ)| ≤ 32768 := by
    have h1 := BitVec.le_toInt w
    have h2 := BitVec.toInt_lt (x := w)
    rw [abs_le]
    constructor
    · have : (-32768 : ℤ) ≤ w.toInt := by simpa using h1
      exact_mod_cast this
    · have : w.toInt ≤ (32768 : ℤ) := by
        have : w.toInt < 32768 := by simpa using h2
        omega
      exact_mod_cast this
  have hsc : 0 < s.2 - s.1 ∧ 0 ≤ s.1 ∧ s.1 ≤ s.2 - s.1 := by
    cases r <;> simp only [uiScale] at hs <;> cases hs <;> norm_num
  have hf : 0 < fullScale f ∧ fullScale f ≤ 27648 := by cases f <;> norm_num [fullScale]
  obtain ⟨hs1, hs2, hs3⟩ := hsc
  have hst0 : 0 < rawUnit s f := div_pos hs1 hf.1
  have hds : s.2 - s.1 ≤ 27648 * rawUnit s f := by
    rw [rawUnit, ← mul_div_assoc, le_div_iff₀ hf.1]
    nlinarith
  have e1 : physical s f w.toInt - s.1 = w.toInt * rawUnit s f := by
    simp only [physical, rawUnit]; ring
  have b2 : |physical s f w.toInt - s.1| ≤ 32768 * rawUnit s f := by
    rw [e1, abs_mul, abs_of_pos hst0]
    exact mul_le_mul_of_nonneg_right hw hst0.le
  rw [div_le_iff₀ (by norm_num)]
  nlinarith

/-- What a shown channel with range and format is. -/
theorem shown_reading {t : ModuleType} {par img : List Word} {pos ch : Nat} {v : ChannelValue}
    (h : InputShown t par img pos ch v) {r : AnalogUIRange} {f : DataFormat}
    (hf : InputFormat t par ch r f) :
    ∃ w, img[pos / 16 + ch]? = some w ∧ AnalogReading (r, f) w v := by
  cases t
  case UR20_4AI_UI_12 =>
    obtain ⟨w, f', r', h1, h2, h3, h4⟩ := h
    cases paramIs_format h2 hf.1
    cases paramIs_range h3 hf.2
    exact ⟨w, h1, h4⟩
  case UR20_4AI_UI_16 =>
    obtain ⟨w, f', r', h1, h2, h3, h4⟩ := h
    cases paramIs_format h2 hf.1
    cases paramIs_range h3 hf.2
    exact ⟨w, h1, h4⟩
  case UR20_4AI_UI_16_DIAG =>
    obtain ⟨w, f', r', h1, h2, h3, h4⟩ := h
    cases paramIs_format h2 hf.1
    cases paramIs_range h3 hf.2
    exact ⟨w, h1, h4⟩
  case UR20_8AI_I_16_DIAG_HD =>
    obtain ⟨w, f', r', h1, h2, h3, h4⟩ := h
    obtain ⟨a, rfl, k1, k2⟩ := hf
    cases paramIs_format h2 k1
    cases paramIs_unique (by intro a b; cases a <;> cases b <;> decide) h3 k2
    exact ⟨w, h1, h4⟩
  all_goals exact hf.elim

/-- What a pending number puts in the register of a channel with range and format. -/
theorem written_number {t : ModuleType} {par old new : List Word} {pos ch : Nat} {x : F32}
    (h : OutputWritten t par old new pos ch (some (.decimal32 x))) {r : AnalogUIRange}
    {f : DataFormat} (hf : OutputFormat t par ch r f) :
    ∃ w, new[pos / 16 + ch]? = some w ∧ EncodedAs (r, f) x w.toInt := by
  cases t
  case UR20_4AO_UI_16 =>
    obtain ⟨_, w, f', r', -, h1, h2, h3, h4⟩ := h
    cases paramIs_format h2 hf.1
    cases paramIs_range h3 hf.2
    exact ⟨w, h1, h4⟩
  case UR20_4AO_UI_16_DIAG =>
    obtain ⟨_, w, f', r', -, h1, h2, h3, h4⟩ := h
    cases paramIs_format h2 hf.1
    cases paramIs_range h3 hf.2
    exact ⟨w, h1, h4⟩
  all_goals exact hf.elim

/-- C114: a digital output or relay wired to a digital input of the same or another coupler. What
`set_output` is given for the output is what `inputs` shows for the input, once a cycle has returned
the image for the output and a later one has been given an input image in which the bit of the input
is the bit of the output. -/
theorem C114_digital (oc : Bool) (cfg cfg' : CouplerConfig) (c d : Coupler)
    (hr : ReachableFrom oc cfg c) (hr' : ReachableFrom oc cfg' d) (j : Nat) (hdis : OutputsKept cfg j)
    (t : ModuleType) (par : List Word) (o i : Word) (hcfg : ConfiguredAt cfg j t par o i)
    (hno : o ≠ noOffset) (hal : o.toNat % 16 = 0 ∨ outputBytes t par = 1)
    (ch : Nat) (hch : ch < outputChannels t)
    (k : Nat) (t' : ModuleType) (par' : List Word) (o' i' : Word)
    (hcfg' : ConfiguredAt cfg' k t' par' o' i') (hin : DigitalInput t') (hno' : i' ≠ noOffset)
    (ch' : Nat) (hch' : ch' < inputChannels t') (b : Bool)
    (pi po img : List Word) (c' : Coupler)
    (h : (c.setOutput ⟨j, ch⟩ (.bit b)).1.next oc pi po = (c', .ok img))
    (pi' po' img' : List Word) (d' : Coupler) (h' : d.next oc pi' po' = (d', .ok img'))
    (hser : t ≠ .UR20_1COM_232_485_422)
    (wire : bitAt pi' (i'.toNat + ch') = bitAt img (outBit o + ch)) :
    ∃ vs, d'.inputs[k]? = some vs ∧ vs[ch']? = some (.bit b) := by
  obtain ⟨hr1, hw⟩ := set_write hr hcfg hch (.bit b)
  have himg := C72_image oc cfg _ hr1 j hdis pi po img c' h t par o i hcfg hser hno hal ch hch
  rw [hw] at himg
  have hbit : bitAt img (outBit o + ch) = some b := by
    cases t
    case UR20_4DO_P => obtain ⟨_, _, -, h1, rfl⟩ := himg; exact h1
    case UR20_4DO_P_2A => obtain ⟨_, _, -, h1, rfl⟩ := himg; exact h1
    case UR20_8DO_P => obtain ⟨_, _, -, h1, rfl⟩ := himg; exact h1
    case UR20_16DO_P => obtain ⟨_, _, -, h1, rfl⟩ := himg; exact h1
    case UR20_4RO_CO_255 => obtain ⟨_, _, -, h1, rfl⟩ := himg; exact h1
    case UR20_4AO_UI_16 => obtain ⟨_, _, _, _, -, -, -, -, h1⟩ := himg; exact h1.elim
    case UR20_4AO_UI_16_DIAG => obtain ⟨_, _, _, _, -, -, -, -, h1⟩ := himg; exact h1.elim
    case UR20_2FCNT_100 => obtain ⟨_, _, _, _, -, -, h1⟩ := himg; exact h1.elim
    all_goals exact himg.elim
  have hal' : i'.toNat % 16 = 0 ∨ inputBytes t' par' = 1 := by
    rcases hin with rfl | rfl <;> exact .inr rfl
  obtain ⟨vs, e1, -, e2⟩ := (C70_inputs oc cfg' d hr' pi' po' img' d' h' k t' par' o' i' hcfg'
    (by rcases hin with rfl | rfl <;> decide)).2 hno' hal'
  obtain ⟨v, e3, e4⟩ := e2 ch' hch'
  have hv : ∃ b', bitAt pi' (i'.toNat + ch') = some b' ∧ v = .bit b' := by
    rcases hin with rfl | rfl <;> exact e4
  obtain ⟨b', h1, rfl⟩ := hv
  rw [wire, hbit] at h1
  cases h1
  exact ⟨vs, e1, e3⟩

/-- C114: an analog output wired to an analog input of the same or another coupler, with any
enabled ranges and formats. If the physical value of the input register differs from the one of the
output register by at most `δ`, `inputs` shows a number that differs from the one given to
`set_output` by at most `δ`, 17/16 of a raw unit of the output and 1/128 of a raw unit of the
input. -/
theorem C114_analog (oc : Bool) (cfg cfg' : CouplerConfig) (c d : Coupler)
    (hr : ReachableFrom oc cfg c) (hr' : ReachableFrom oc cfg' d) (j : Nat) (hdis : OutputsKept cfg j)
    (t : ModuleType) (par : List Word) (o i : Word) (hcfg : ConfiguredAt cfg j t par o i)
    (hno : o ≠ noOffset) (hal : o.toNat % 16 = 0) (ch : Nat) (hch : ch < outputChannels t)
    (r : AnalogUIRange) (f : DataFormat) (hf : OutputFormat t par ch r f)
    (s : ℚ × ℚ) (hs : uiScale r = some s)
    (k : Nat) (t' : ModuleType) (par' : List Word) (o' i' : Word)
    (hcfg' : ConfiguredAt cfg' k t' par' o' i') (hno' : i' ≠ noOffset) (hal' : i'.toNat % 16 = 0)
    (ch' : Nat) (hch' : ch' < inputChannels t')
    (r' : AnalogUIRange) (f' : DataFormat) (hf' : InputFormat t' par' ch' r' f')
    (s' : ℚ × ℚ) (hs' : uiScale r' = some s')
    (x : ℚ) (hx : Single x) (hrange : |exactRaw s f x| ≤ 32767)
    (pi po img : List Word) (c' : Coupler)
    (h : (c.setOutput ⟨j, ch⟩ (.decimal32 (.fin x))).1.next oc pi po = (c', .ok img))
    (pi' po' img' : List Word) (d' : Coupler) (h' : d.next oc pi' po' = (d', .ok img'))
    (δ : ℚ) (wire : ∀ w w', img[outBit o / 16 + ch]? = some w → pi'[i'.toNat / 16 + ch']? = some w' →
      |physical s' f' w'.toInt - physical s f w.toInt| ≤ δ) :
    ∃ vs q, d'.inputs[k]? = some vs ∧ vs[ch']? = some (.decimal32 (.fin q)) ∧
      |q - x| ≤ δ + 17 / 16 * rawUnit s f + rawUnit s' f' / 128 := by
  have hser : t ≠ .UR20_1COM_232_485_422 := by rintro rfl; exact hf
  have hser' : t' ≠ .UR20_1COM_232_485_422 := by rintro rfl; exact hf'
  obtain ⟨hr1, hw⟩ := set_write hr hcfg hch (.decimal32 (.fin x))
  have himg := C72_image oc cfg _ hr1 j hdis pi po img c' h t par o i hcfg hser hno (.inl hal) ch hch
  rw [hw] at himg
  obtain ⟨w, w1, w2⟩ := written_number himg hf
  obtain ⟨vs, e1, -, e2⟩ := (C70_inputs oc cfg' d hr' pi' po' img' d' h' k t' par' o' i' hcfg'
    hser').2 hno' (.inl hal')
  obtain ⟨v, e3, e4⟩ := e2 ch' hch'
  obtain ⟨w', g1, g2⟩ := shown_reading e4 hf'
  obtain ⟨q, rfl, g3⟩ := reading_close hs' g2
  refine ⟨vs, q, e1, e3, ?_⟩
  have a1 := encoded_close hs hx hrange w2
  have a2 := wire w w' w1 g1
  rw [abs_le] at a1 a2 g3 ⊢
  constructor <;> linarith

/-- Four digital outputs, an analog output module, four digital inputs and an analog input module. -/
def exWired : CouplerConfig where
  modules := [.UR20_4DO_P, .UR20_4AO_UI_16, .UR20_4DI_P, .UR20_4AI_UI_16]
  offsets := [0x8000, 0xFFFF, 0x8010, 0xFFFF, 0xFFFF, 0x0000, 0xFFFF, 0x0010]
  params := [[0, 0, 0, 0], [0, 0, 0, 0, 0, 0, 1, 2, 0, 1, 2, 0], [0, 0, 0, 0],
    [0, 1, 0, 1, 2, 1, 2, 1, 2]]

example : ∃ c, Coupler.new exWired = .ok c ∧
    ∃ c1 img, ((c.setOutput ⟨0, 2⟩ (.bit true)).1.setOutput ⟨1, 2⟩ (.decimal32 (.fin 5))).1.next true
      [0, 0, 0, 0, 0] [0, 0, 0, 0, 0] = (c1, .ok img) ∧ img = [4, 0, 0, 13824, 0] ∧
    ∃ c2 img', c1.next true [4, 0, 13824, 0, 0] img = (c2, .ok img') ∧
      c2.inputs[2]?.bind (·[2]?) = some (.bit true) ∧
      c2.inputs[3]?.bind (·[1]?) = some (.decimal32 (.fin 5)) :=
  ⟨_, rfl, _, _, rfl, by decide +kernel, _, _, rfl, by decide +kernel, by decide +kernel⟩

example : OutputFormat .UR20_4AO_UI_16 [0, 0, 0, 0, 0, 0, 1, 2, 0, 1, 2, 0] 2 .V0To10 .S7 ∧
    InputFormat .UR20_4AI_UI_16 [0, 1, 0, 1, 2, 1, 2, 1, 2] 1 .V0To10 .S7 ∧
    ∃ s, uiScale .V0To10 = some s ∧ |exactRaw s .S7 5| ≤ 32767 ∧ rawUnit s .S7 = 10 / 27648 := by
  refine ⟨⟨⟨_, rfl, rfl⟩, ⟨_, rfl, rfl⟩⟩, ⟨⟨_, rfl, rfl⟩, ⟨_, rfl, rfl⟩⟩,
    _, rfl, ?_, ?_⟩ <;> norm_num [exactRaw, rawUnit, fullScale]

theorem exWired_kept : OutputsKept exWired 1 := by
  intro k t par o i t' par' o' i' p hk h ⟨h1, h2, h3, h4⟩ _ hno _ _
  have hj : k < 4 := (List.getElem?_eq_some_iff.1 h1).1
  have : k = 2 ∨ k = 3 := by omega
  rcases this with rfl | rfl
  · exact absurd (Option.some.inj h3).symm hno
  · exact absurd (Option.some.inj h3).symm hno

/-- The cycles of the example above meet the hypotheses of `C114_analog`. -/
example (c : Coupler) (hc : Coupler.new exWired = .ok c) (c1 c2 : Coupler) (img' : List Word)
    (h : ((c.setOutput ⟨0, 2⟩ (.bit true)).1.setOutput ⟨1, 2⟩ (.decimal32 (.fin 5))).1.next true
      [0, 0, 0, 0, 0] [0, 0, 0, 0, 0] = (c1, .ok [4, 0, 0, 13824, 0]))
    (h' : c1.next true [4, 0, 13824, 0, 0] [4, 0, 0, 13824, 0] = (c2, .ok img')) :=
  have hr : ReachableFrom true exWired (c.setOutput ⟨0, 2⟩ (.bit true)).1 :=
    ⟨c, [.setOutput ⟨0, 2⟩ (.bit true)], hc, rfl⟩
  have hr' : ReachableFrom true exWired c1 :=
    ⟨c, [.setOutput ⟨0, 2⟩ (.bit true), .setOutput ⟨1, 2⟩ (.decimal32 (.fin 5)),
      .next [0, 0, 0, 0, 0] [0, 0, 0, 0, 0]], hc, (congrArg Prod.fst h).symm⟩
  C114_analog true exWired exWired _ c1 hr hr' 1 exWired_kept .UR20_4AO_UI_16 _ 0x8010 0xFFFF
    ⟨rfl, rfl, rfl, rfl⟩ (by decide) (by decide) 2 (by decide) .V0To10 .S7
    ⟨⟨_, rfl, rfl⟩, ⟨_, rfl, rfl⟩⟩ _ rfl 3 .UR20_4AI_UI_16 _ 0xFFFF 0x0010 ⟨rfl, rfl, rfl, rfl⟩ (by decide)
    (by decide) 1 (by decide) .V0To10 .S7 ⟨⟨_, rfl, rfl⟩, ⟨_, rfl, rfl⟩⟩ _ rfl 5
    ⟨5, 0, by norm_num, by norm_num, by norm_num, by norm_num⟩
    (by norm_num [exactRaw, fullScale]) _ _ _ c1 h _ _ _ c2 h' 0 (by
      intro w w' e1 e2
      cases e1
      cases e2
      simp)

end Ur20
