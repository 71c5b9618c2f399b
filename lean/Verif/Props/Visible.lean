import Verif.Spec.Visible
import Verif.Props.Wiring

/-! # Changes of inputs are visible: C116 -/

namespace Ur20

open Spec

/-- Numbers near two different numbers are in the same order. -/
theorem lt_of_close {x x' q q' e : ℚ} (h : |q - x| ≤ e) (h' : |q' - x'| ≤ e) (hx : x + 2 * e < x') :
    q < q' := by
  rw [abs_le] at h h'
  linarith [h.2, h'.1]

theorem nearest_close {q x : ℚ} (k : ℕ) (hk : k ≤ 64) (hx : |x| ≤ 2 ^ k) (h : IsNearest q x) :
    |q - x| ≤ 2 ^ k / 2 ^ 25 := by
  have h64 : |x| ≤ 2 ^ 64 := hx.trans (pow_le_pow_right₀ (by norm_num) hk)
  exact (h.2 _ (nearest_roundQ h64).1).trans (roundQ_err k hx)

theorem word_signed (w : Word) : (-32768 : ℚ) ≤ w.toInt ∧ (w.toInt : ℚ) ≤ 32767 := by
  have h1 := BitVec.le_toInt w
  have h2 := BitVec.toInt_lt (x := w)
  constructor
  · have : (-32768 : ℤ) ≤ w.toInt := by simpa using h1
    exact_mod_cast this
  · have : w.toInt ≤ (32767 : ℤ) := by
      have : w.toInt < 32768 := by simpa using h2
      omega
    exact_mod_cast this

theorem word_unsigned (w : Word) : (0 : ℚ) ≤ w.toNat ∧ (w.toNat : ℚ) ≤ 65535 := by
  have h2 : w.toNat ≤ 65535 := by have := w.isLt; omega
  exact ⟨by positivity, by exact_mod_cast h2⟩

/-- Analog inputs. -/
theorem reading_lt {r : AnalogUIRange} {f : DataFormat} (hr : r ≠ .Disabled) {w w' : Word}
    {v v' : ChannelValue} (h : AnalogReading (r, f) w v) (h' : AnalogReading (r, f) w' v')
    (hw : w.toInt < w'.toInt) :
    ∃ q q', v = .decimal32 (.fin q) ∧ v' = .decimal32 (.fin q') ∧ q < q' := by
  obtain ⟨s, hs⟩ : ∃ s, uiScale r = some s := by
    cases r <;> first | exact ⟨_, rfl⟩ | exact absurd rfl hr
  obtain ⟨q, h1, h2⟩ := reading_close hs h
  obtain ⟨q', h1', h2'⟩ := reading_close hs h'
  refine ⟨q, q', h1, h1', lt_of_close h2 h2' ?_⟩
  have hsc : 0 < s.2 - s.1 := by
    cases r <;> simp only [uiScale] at hs <;> cases hs <;> norm_num
  have hf : 0 < fullScale f := by cases f <;> norm_num [fullScale]
  have hu : 0 < rawUnit s f := div_pos hsc hf
  have e : ∀ z : ℤ, physical s f z = s.1 + z * rawUnit s f := by
    intro z; simp only [physical, rawUnit]; ring
  rw [e, e]
  have hz : (w.toInt : ℚ) + 1 ≤ w'.toInt := by exact_mod_cast hw
  nlinarith

/-- Resistance thermometers. -/
theorem rtd_lt {r : RtdRange} {f : Word → ℚ} (hf : rtdExact r = some f) {w w' : Word}
    {v v' : ChannelValue} (h : RtdReading r w v) (h' : RtdReading r w' v') (hw : f w < f w') :
    ∃ q q', v = .decimal32 (.fin q) ∧ v' = .decimal32 (.fin q') ∧ q < q' := by
  simp only [RtdReading, hf] at h h'
  obtain ⟨q, h1, h2⟩ := h
  obtain ⟨q', h1', h2'⟩ := h'
  refine ⟨q, q', h1, h1', ?_⟩
  have temp : (∀ x, f x = x.toInt / 10) → q < q' := by
    intro e
    simp only [e] at h2 h2' hw
    have hz : (w.toInt : ℚ) + 1 ≤ w'.toInt := by
      have : (w.toInt : ℚ) < w'.toInt := by linarith
      exact_mod_cast this
    have b : ∀ x : Word, |(x.toInt : ℚ) / 10| ≤ 2 ^ 12 := by
      intro x
      have := word_signed x
      rw [abs_le]; constructor <;> linarith
    refine lt_of_close (nearest_close 12 (by norm_num) (b _) h2)
      (nearest_close 12 (by norm_num) (b _) h2') ?_
    norm_num
    linarith
  have res : ∀ (n : ℚ) (k : ℕ), k ≤ 64 → 0 < n → n * 65535 / 27648 ≤ 2 ^ k →
      2 ^ k / 2 ^ 25 * 2 < n / 27648 → (∀ x, f x = n * x.toNat / 27648) → q < q' := by
    intro n k hk hn hb hu e
    simp only [e] at h2 h2' hw
    have hz : (w.toNat : ℚ) + 1 ≤ w'.toNat := by
      have : (w.toNat : ℚ) < w'.toNat := by
        rw [div_lt_div_iff_of_pos_right (by norm_num)] at hw
        exact lt_of_mul_lt_mul_left hw hn.le
      exact_mod_cast this
    have b : ∀ x : Word, |n * (x.toNat : ℚ) / 27648| ≤ 2 ^ k := by
      intro x
      have := word_unsigned x
      rw [abs_of_nonneg (by positivity)]
      refine le_trans ?_ hb
      rw [div_le_div_iff_of_pos_right (by norm_num)]
      exact mul_le_mul_of_nonneg_left this.2 hn.le
    refine lt_of_close (nearest_close k hk (b _) h2) (nearest_close k hk (b _) h2') ?_
    have : n * (w.toNat : ℚ) / 27648 + n / 27648 ≤ n * w'.toNat / 27648 := by
      rw [← add_div, div_le_div_iff_of_pos_right (by norm_num)]
      nlinarith
    linarith
  cases r <;> cases hf
  case R40 => exact res 40 7 (by norm_num) (by norm_num) (by norm_num) (by norm_num) fun _ => rfl
  case R80 => exact res 80 8 (by norm_num) (by norm_num) (by norm_num) (by norm_num) fun _ => rfl
  case R150 => exact res 150 9 (by norm_num) (by norm_num) (by norm_num) (by norm_num) fun _ => rfl
  case R300 => exact res 300 10 (by norm_num) (by norm_num) (by norm_num) (by norm_num) fun _ => rfl
  case R500 => exact res 500 11 (by norm_num) (by norm_num) (by norm_num) (by norm_num) fun _ => rfl
  case R1000 =>
    exact res 1000 12 (by norm_num) (by norm_num) (by norm_num) (by norm_num) fun _ => rfl
  case R2000 =>
    exact res 2000 13 (by norm_num) (by norm_num) (by norm_num) (by norm_num) fun _ => rfl
  case R4000 =>
    exact res 4000 14 (by norm_num) (by norm_num) (by norm_num) (by norm_num) fun _ => rfl
  all_goals exact temp fun _ => rfl

/-- Thermocouples. -/
theorem tc_lt {r : TcRange} (hr : r ≠ .Disabled) {w w' : Word} {v v' : ChannelValue}
    (h : TcReading r w v) (h' : TcReading r w' v') (hw : w.toInt < w'.toInt)
    (hn : (∃ x, tcVolts r = some x) ∨ w'.toInt ≠ 32767) :
    ∃ q q', v = .decimal32 (.fin q) ∧ v' = .decimal32 (.fin q') ∧ q < q' := by
  have hz : (w.toInt : ℚ) + 1 ≤ w'.toInt := by exact_mod_cast hw
  have b1 := word_signed w
  have b2 := word_signed w'
  by_cases hv : ∃ x, tcVolts r = some x
  · obtain ⟨x, hx⟩ := hv
    obtain ⟨q, h1, h2⟩ := h.2.1 x hx
    obtain ⟨q', h1', h2'⟩ := h'.2.1 x hx
    refine ⟨q, q', h1, h1', ?_⟩
    have key : ∀ k : ℕ, k ≤ 64 → 0 < x → x * 32768 / 32767 ≤ 2 ^ k →
        2 ^ k / 2 ^ 25 * 2 < x / 32767 → q < q' := by
      intro k hk hp hb hu
      have b : ∀ y : Word, |x * (y.toInt : ℚ) / 32767| ≤ 2 ^ k := by
        intro y
        have := word_signed y
        refine le_trans ?_ hb
        rw [abs_div, abs_mul, abs_of_pos hp, abs_of_pos (by norm_num : (0 : ℚ) < 32767),
          div_le_div_iff_of_pos_right (by norm_num)]
        refine mul_le_mul_of_nonneg_left ?_ hp.le
        rw [abs_le]; constructor <;> linarith
      refine lt_of_close (nearest_close k hk (b _) h2) (nearest_close k hk (b _) h2') ?_
      have : x * (w.toInt : ℚ) / 32767 + x / 32767 ≤ x * w'.toInt / 32767 := by
        rw [← add_div, div_le_div_iff_of_pos_right (by norm_num)]
        nlinarith
      linarith
    cases r <;> cases hx
    all_goals exact key 2 (by norm_num) (by norm_num) (by norm_num) (by norm_num)
  · have hnone : tcVolts r = none := by
      cases hh : tcVolts r with
      | none => rfl
      | some x => exact absurd ⟨x, hh⟩ hv
    have hne' : w'.toInt ≠ 32767 := hn.resolve_left hv
    have hne : w.toInt ≠ 32767 := by
      intro hh
      have : w'.toInt ≤ 32767 := by exact_mod_cast b2.2
      omega
    obtain ⟨q, h1, -, h2⟩ := (h.2.2 hr hnone).2 hne
    obtain ⟨q', h1', -, h2'⟩ := (h'.2.2 hr hnone).2 hne'
    refine ⟨q, q', h1, h1', lt_of_close (e := 3277 / 2 ^ 23) (h2.trans ?_) (h2'.trans ?_) ?_⟩
    · refine div_le_div_of_nonneg_right ?_ (by norm_num)
      rw [abs_le]; constructor <;> linarith
    · refine div_le_div_of_nonneg_right ?_ (by norm_num)
      rw [abs_le]; constructor <;> linarith
    · linarith

theorem paramIs_rtd {par : List Word} {k : Nat} {x y : RtdRange} (hx : ParamIs par k x)
    (hy : ParamIs par k y) : x = y :=
  paramIs_unique (by intro a b; cases a <;> cases b <;> decide) hx hy

theorem paramIs_tc {par : List Word} {k : Nat} {x y : TcRange} (hx : ParamIs par k x)
    (hy : ParamIs par k y) : x = y :=
  paramIs_unique (by intro a b; cases a <;> cases b <;> decide) hx hy

/-- A register that stands for more shows a larger number. -/
theorem shown_lt {t : ModuleType} {par img img' : List Word} {pos ch : Nat} {v v' : ChannelValue}
    (he : InputEnabled t par ch) (h : InputShown t par img pos ch v)
    (h' : InputShown t par img' pos ch v') {w w' : Word} (hw : img[pos / 16 + ch]? = some w)
    (hw' : img'[pos / 16 + ch]? = some w') (hlt : InputBelow t par ch w w') :
    ∃ q q', v = .decimal32 (.fin q) ∧ v' = .decimal32 (.fin q') ∧ q < q' := by
  cases t
  case UR20_4AI_UI_12 =>
    obtain ⟨_, f, r, a1, a2, a3, a4⟩ := h
    obtain ⟨_, f', r', b1, b2, b3, b4⟩ := h'
    cases a1.symm.trans hw; cases b1.symm.trans hw'
    cases paramIs_format a2 b2; cases paramIs_range a3 b3
    exact reading_lt (by rintro rfl; exact he a3) a4 b4 hlt
  case UR20_4AI_UI_16 =>
    obtain ⟨_, f, r, a1, a2, a3, a4⟩ := h
    obtain ⟨_, f', r', b1, b2, b3, b4⟩ := h'
    cases a1.symm.trans hw; cases b1.symm.trans hw'
    cases paramIs_format a2 b2; cases paramIs_range a3 b3
    exact reading_lt (by rintro rfl; exact he a3) a4 b4 hlt
  case UR20_4AI_UI_16_DIAG =>
    obtain ⟨_, f, r, a1, a2, a3, a4⟩ := h
    obtain ⟨_, f', r', b1, b2, b3, b4⟩ := h'
    cases a1.symm.trans hw; cases b1.symm.trans hw'
    cases paramIs_format a2 b2; cases paramIs_range a3 b3
    exact reading_lt (by rintro rfl; exact he a3) a4 b4 hlt
  case UR20_8AI_I_16_DIAG_HD =>
    obtain ⟨_, f, r, a1, a2, a3, a4⟩ := h
    obtain ⟨_, f', r', b1, b2, b3, b4⟩ := h'
    cases a1.symm.trans hw; cases b1.symm.trans hw'
    cases paramIs_format a2 b2
    cases paramIs_unique (by intro a b; cases a <;> cases b <;> decide) a3 b3
    refine reading_lt ?_ a4 b4 hlt
    cases r <;> simp only [currentRange, ne_eq, reduceCtorEq, not_false_eq_true, not_true_eq_false]
    exact he a3
  case UR20_4AI_RTD_DIAG =>
    obtain ⟨_, r, a1, a2, a3⟩ := h
    obtain ⟨_, r', b1, b2, b3⟩ := h'
    obtain ⟨r'', f, c1, c2, c3⟩ := hlt
    cases a1.symm.trans hw; cases b1.symm.trans hw'
    cases paramIs_rtd a2 b2; cases paramIs_rtd a2 c1
    exact rtd_lt c2 a3 b3 c3
  case UR20_4AI_TC_DIAG =>
    obtain ⟨_, r, a1, a2, a3⟩ := h
    obtain ⟨_, r', b1, b2, b3⟩ := h'
    cases a1.symm.trans hw; cases b1.symm.trans hw'
    cases paramIs_tc a2 b2
    refine tc_lt (by rintro rfl; exact he a2) a3 b3 hlt.1 (hlt.2.imp_left ?_)
    rintro ⟨r'', x, c1, c2⟩
    cases paramIs_tc a2 c1
    exact ⟨x, c2⟩
  all_goals exact hlt.elim

/-- The same number is not shown for registers of which one stands for less. -/
theorem shown_not_lt {t : ModuleType} {par img img' : List Word} {pos ch : Nat} {v : ChannelValue}
    (he : InputEnabled t par ch) (h : InputShown t par img pos ch v)
    (h' : InputShown t par img' pos ch v) {w w' : Word} (hw : img[pos / 16 + ch]? = some w)
    (hw' : img'[pos / 16 + ch]? = some w') : ¬ InputBelow t par ch w w' := by
  intro hlt
  obtain ⟨q, q', h1, h2, h3⟩ := shown_lt he h h' hw hw' hlt
  cases h1.symm.trans h2
  exact lt_irrefl _ h3

theorem rtd_injective {r : RtdRange} {f : Word → ℚ} (hf : rtdExact r = some f) {w w' : Word}
    (h : f w = f w') : w = w' := by
  cases r <;> cases hf <;> simp only [div_left_inj' (by norm_num : (10 : ℚ) ≠ 0),
    div_left_inj' (by norm_num : (27648 : ℚ) ≠ 0), mul_eq_mul_left_iff, Int.cast_inj, Nat.cast_inj,
    OfNat.ofNat_ne_zero, or_false] at h
  all_goals first | exact BitVec.toInt_inj.1 h | exact BitVec.toNat_inj.1 h

theorem shown_same {t : ModuleType} {par img img' : List Word} {pos ch : Nat} {v : ChannelValue}
    (he : InputEnabled t par ch) (h : InputShown t par img pos ch v)
    (h' : InputShown t par img' pos ch v) : SameInput t img img' pos ch := by
  have signed : ∀ {w w' : Word}, img[pos / 16 + ch]? = some w → img'[pos / 16 + ch]? = some w' →
      (∀ a b : Word, InputBelow t par ch a b ↔ a.toInt < b.toInt) →
      img[pos / 16 + ch]? = img'[pos / 16 + ch]? := by
    intro w w' hw hw' hb
    have h1 := shown_not_lt he h h' hw hw'
    have h2 := shown_not_lt he h' h hw' hw
    rw [hb] at h1 h2
    rw [hw, hw', BitVec.toInt_inj.1 (by omega : w.toInt = w'.toInt)]
  cases t
  case UR20_4DI_P =>
    obtain ⟨b, h1, rfl⟩ := h
    obtain ⟨b', h1', h2⟩ := h'
    cases h2
    exact h1.trans h1'.symm
  case UR20_8DI_P_2W =>
    obtain ⟨b, h1, rfl⟩ := h
    obtain ⟨b', h1', h2⟩ := h'
    cases h2
    exact h1.trans h1'.symm
  case UR20_4AI_UI_12 =>
    exact signed h.choose_spec.choose_spec.choose_spec.1 h'.choose_spec.choose_spec.choose_spec.1
      fun _ _ => Iff.rfl
  case UR20_4AI_UI_16 =>
    exact signed h.choose_spec.choose_spec.choose_spec.1 h'.choose_spec.choose_spec.choose_spec.1
      fun _ _ => Iff.rfl
  case UR20_4AI_UI_16_DIAG =>
    exact signed h.choose_spec.choose_spec.choose_spec.1 h'.choose_spec.choose_spec.choose_spec.1
      fun _ _ => Iff.rfl
  case UR20_8AI_I_16_DIAG_HD =>
    exact signed h.choose_spec.choose_spec.choose_spec.1 h'.choose_spec.choose_spec.choose_spec.1
      fun _ _ => Iff.rfl
  case UR20_4AI_RTD_DIAG =>
    obtain ⟨w, r, a1, a2, a3⟩ := id h
    obtain ⟨w', r', b1, b2, b3⟩ := id h'
    cases paramIs_rtd a2 b2
    obtain ⟨f, hf⟩ : ∃ f, rtdExact r = some f := by
      cases r <;> first | exact ⟨_, rfl⟩ | exact absurd a2 he
    have h1 := shown_not_lt he h h' a1 b1
    have h2 := shown_not_lt he h' h b1 a1
    have e1 : ¬ f w < f w' := fun hh => h1 ⟨r, f, a2, hf, hh⟩
    have e2 : ¬ f w' < f w := fun hh => h2 ⟨r, f, a2, hf, hh⟩
    show img[pos / 16 + ch]? = img'[pos / 16 + ch]?
    rw [a1, b1, rtd_injective hf (le_antisymm (not_lt.1 e2) (not_lt.1 e1))]
  case UR20_4AI_TC_DIAG =>
    obtain ⟨w, r, a1, a2, a3⟩ := id h
    obtain ⟨w', r', b1, b2, b3⟩ := id h'
    cases paramIs_tc a2 b2
    have hd : r ≠ .Disabled := by rintro rfl; exact he a2
    have h1 := shown_not_lt he h h' a1 b1
    have h2 := shown_not_lt he h' h b1 a1
    show img[pos / 16 + ch]? = img'[pos / 16 + ch]?
    rw [a1, b1]
    congr 1
    apply BitVec.toInt_inj.1
    cases hv : tcVolts r with
    | some x =>
      have e1 : ¬ w.toInt < w'.toInt := fun hh => h1 ⟨hh, .inl ⟨r, x, a2, hv⟩⟩
      have e2 : ¬ w'.toInt < w.toInt := fun hh => h2 ⟨hh, .inl ⟨r, x, a2, hv⟩⟩
      omega
    | none =>
      by_cases c1 : w.toInt = 32767
      · by_cases c2 : w'.toInt = 32767
        · rw [c1, c2]
        · obtain ⟨q, hq, -⟩ := (b3.2.2 hd hv).2 c2
          cases ((a3.2.2 hd hv).1 c1).symm.trans hq
      · by_cases c2 : w'.toInt = 32767
        · obtain ⟨q, hq, -⟩ := (a3.2.2 hd hv).2 c1
          cases ((b3.2.2 hd hv).1 c2).symm.trans hq
        · have e1 : ¬ w.toInt < w'.toInt := fun hh => h1 ⟨hh, .inr c2⟩
          have e2 : ¬ w'.toInt < w.toInt := fun hh => h2 ⟨hh, .inr c1⟩
          omega
  case UR20_2FCNT_100 =>
    obtain ⟨dh, dl, nh, nl, s, a1, a2, a3, a4, a5, x, rfl, a6, a7, a8⟩ := h
    obtain ⟨dh', dl', nh', nl', s', b1, b2, b3, b4, b5, x', hx, b6, b7, b8⟩ := h'
    cases hx
    refine ⟨?_, ?_, ?_⟩
    · simp only [highLow, a3, a4, b3, b4]
      rw [← a6, ← b6]
    · rw [a5, b5, Option.map_some, Option.map_some, ← a7, ← b7]
    · simp only [highLow, a1, a2, b1, b2]
      rw [a8] at b8
      split at b8 <;> split at b8
      · rename_i c1 c2
        exact .inr ⟨_, _, rfl, rfl, c1, c2⟩
      · cases b8
      · cases b8
      · have := Option.some.inj b8
        exact .inl (congrArg some (by omega))
  case UR20_PF_O_1DI_SIL =>
    obtain ⟨w, a1, rfl⟩ := h
    obtain ⟨w', b1, b2⟩ := h'
    simp only [ChannelValue.silPFIn.injEq, SilIn.mk.injEq] at b2
    obtain ⟨e1, e2, e3, e4, e5, e6, e7⟩ := b2
    intro k hk
    rw [a1, b1, Option.map_some, Option.map_some]
    simp only [List.mem_cons, List.not_mem_nil, or_false] at hk
    rcases hk with rfl | rfl | rfl | rfl | rfl | rfl | rfl
    · rw [e1]
    · rw [e2]
    · rw [e3]
    · rw [e4]
    · rw [e5]
    · rw [e6]
    · rw [e7]
  all_goals exact h.elim

/-- C116: every change of an input is visible. If after two cycles, of the same coupler or of two
couplers with the same configuration, `inputs` shows the same value for a channel that is not
disabled, the two input images agree in the data of the channel. -/
theorem C116_visible (oc : Bool) (cfg : CouplerConfig) (c d : Coupler)
    (hr : ReachableFrom oc cfg c) (hr' : ReachableFrom oc cfg d)
    (pi po img : List Word) (c' : Coupler) (h : c.next oc pi po = (c', .ok img))
    (pi' po' img' : List Word) (d' : Coupler) (h' : d.next oc pi' po' = (d', .ok img'))
    (j : Nat) (t : ModuleType) (par : List Word) (o i : Word) (hcfg : ConfiguredAt cfg j t par o i)
    (ht : t ≠ .UR20_1COM_232_485_422) (hno : i ≠ noOffset)
    (hal : i.toNat % 16 = 0 ∨ inputBytes t par = 1) (ch : Nat) (hch : ch < inputChannels t)
    (he : InputEnabled t par ch) (vs vs' : List ChannelValue) (v : ChannelValue)
    (hv : c'.inputs[j]? = some vs) (hv' : d'.inputs[j]? = some vs')
    (hs : vs[ch]? = some v) (hs' : vs'[ch]? = some v) : SameInput t pi pi' i.toNat ch := by
  obtain ⟨us, e1, -, e2⟩ := (C70_inputs oc cfg c hr pi po img c' h j t par o i hcfg ht).2 hno hal
  obtain ⟨us', e1', -, e2'⟩ :=
    (C70_inputs oc cfg d hr' pi' po' img' d' h' j t par o i hcfg ht).2 hno hal
  cases hv.symm.trans e1
  cases hv'.symm.trans e1'
  obtain ⟨u, f1, f2⟩ := e2 ch hch
  obtain ⟨u', f1', f2'⟩ := e2' ch hch
  cases hs.symm.trans f1
  cases hs'.symm.trans f1'
  exact shown_same he f2 f2'

/-- C116: the numbers shown for an analog channel are in the order of its registers: a register that
stands for more shows a larger number. -/
theorem C116_order (oc : Bool) (cfg : CouplerConfig) (c d : Coupler)
    (hr : ReachableFrom oc cfg c) (hr' : ReachableFrom oc cfg d)
    (pi po img : List Word) (c' : Coupler) (h : c.next oc pi po = (c', .ok img))
    (pi' po' img' : List Word) (d' : Coupler) (h' : d.next oc pi' po' = (d', .ok img'))
    (j : Nat) (t : ModuleType) (par : List Word) (o i : Word) (hcfg : ConfiguredAt cfg j t par o i)
    (ht : t ≠ .UR20_1COM_232_485_422) (hno : i ≠ noOffset)
    (hal : i.toNat % 16 = 0) (ch : Nat) (hch : ch < inputChannels t)
    (he : InputEnabled t par ch) (w w' : Word) (hw : pi[i.toNat / 16 + ch]? = some w)
    (hw' : pi'[i.toNat / 16 + ch]? = some w') (hlt : InputBelow t par ch w w') :
    ∃ vs vs' q q', c'.inputs[j]? = some vs ∧ d'.inputs[j]? = some vs' ∧
      vs[ch]? = some (.decimal32 (.fin q)) ∧ vs'[ch]? = some (.decimal32 (.fin q')) ∧ q < q' := by
  obtain ⟨us, e1, -, e2⟩ :=
    (C70_inputs oc cfg c hr pi po img c' h j t par o i hcfg ht).2 hno (.inl hal)
  obtain ⟨us', e1', -, e2'⟩ :=
    (C70_inputs oc cfg d hr' pi' po' img' d' h' j t par o i hcfg ht).2 hno (.inl hal)
  obtain ⟨u, f1, f2⟩ := e2 ch hch
  obtain ⟨u', f1', f2'⟩ := e2' ch hch
  obtain ⟨q, q', rfl, rfl, hq⟩ := shown_lt he f2 f2' hw hw' hlt
  exact ⟨us, us', q, q', e1, e1', f1, f1', hq⟩

/-- A resistance thermometer module with a Pt100 and a 40 Ω channel and a thermocouple module. -/
def exVisible : CouplerConfig :=
  ⟨[.UR20_4AI_RTD_DIAG, .UR20_4AI_TC_DIAG],
    [0xFFFF#16, 0x0000#16, 0xFFFF#16, 0x0040#16],
    [[0, 0, 0, 0, 0, 0, 32767, 32768, 10, 0, 0, 0, 0, 32767, 32768,
        18, 0, 0, 0, 0, 32767, 32768, 18, 0, 0, 0, 0, 32767, 32768],
      [0, 0, 0, 0, 0, 0, 32767, 32768, 11, 0, 0, 0, 0, 32767, 32768,
        19, 0, 0, 0, 0, 32767, 32768, 19, 0, 0, 0, 0, 32767, 32768]]⟩

example : ∃ c, Coupler.new exVisible = .ok c ∧
    ∃ c1 img, c.next true [0xFFFF, 0xFFFF, 0, 0, 0xFFFF, 1, 0, 0] [] = (c1, .ok img) ∧
      (c1.inputs.map (·.map fun v => match v with
        | .decimal32 (.fin q) => decide (0 < q) | _ => false)) =
      [[false, true, false, false], [false, true, false, false]] ∧
    ∃ c2 img', c1.next true [1, 1, 0, 0, 1, 1, 0, 0] img = (c2, .ok img') ∧
      (c2.inputs.map (·.map fun v => match v with
        | .decimal32 (.fin q) => decide (0 < q) | _ => false)) =
      [[true, true, false, false], [true, true, false, false]] :=
  ⟨_, rfl, _, _, rfl, by decide +kernel, _, _, rfl, by decide +kernel⟩

example : ∀ par, exVisible.params[0]? = some par →
    InputEnabled .UR20_4AI_RTD_DIAG par 1 ∧
    InputBelow .UR20_4AI_RTD_DIAG par 1 1#16 0xFFFF#16 ∧
    InputBelow .UR20_4AI_RTD_DIAG par 0 0xFFFF#16 1#16 := by
  intro par hp
  cases hp
  refine ⟨?_, ⟨.R40, _, ⟨_, rfl, rfl⟩, rfl, ?_⟩, ⟨.PT100, _, ⟨_, rfl, rfl⟩, rfl, ?_⟩⟩
  · rintro ⟨w, h1, h2⟩
    cases h1
    exact absurd (show (10#16).toNat = code RtdRange.Disabled from h2) (by decide)
  · norm_num
  · norm_num [show BitVec.toInt (0xFFFF#16) = -1 by decide, show BitVec.toInt (1#16) = 1 by decide]

/-- The cycles of the example above meet the hypotheses of `C116_order`. -/
example (c : Coupler) (hc : Coupler.new exVisible = .ok c) (c1 c2 : Coupler) (img img' : List Word)
    (h : c.next true [0xFFFF, 0xFFFF, 0, 0, 0xFFFF, 1, 0, 0] [] = (c1, .ok img))
    (h' : c1.next true [1, 1, 0, 0, 1, 1, 0, 0] img = (c2, .ok img')) :=
  have hr' : ReachableFrom true exVisible c1 :=
    ⟨c, [.next [0xFFFF, 0xFFFF, 0, 0, 0xFFFF, 1, 0, 0] []], hc, (congrArg Prod.fst h).symm⟩
  C116_order true exVisible c c1 ⟨c, [], hc, rfl⟩ hr' _ _ _ c1 h _ _ _ c2 h' 0 .UR20_4AI_RTD_DIAG _
    0xFFFF#16 0x0000#16 ⟨rfl, rfl, rfl, rfl⟩ (by decide) (by decide) (by decide) 0 (by decide)
    (by
      rintro ⟨w, h1, h2⟩
      cases h1
      exact absurd (show (0#16).toNat = code RtdRange.Disabled from h2) (by decide))
    0xFFFF#16 1#16 rfl rfl
    ⟨.PT100, _, ⟨_, rfl, rfl⟩, rfl, by
      norm_num [show BitVec.toInt (0xFFFF#16) = -1 by decide, show BitVec.toInt (1#16) = 1 by decide]⟩

end Ur20
