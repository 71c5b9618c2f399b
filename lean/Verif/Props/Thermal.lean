import Verif.Lemmas.AnalogModules

/-! # Resistance thermometers and thermocouples: C56, C57 -/

namespace Ur20

open Spec F32

/-- A quotient of exactly represented numbers is the nearest number. -/
theorem div_nearest {a b : ℚ} (hb : b ≠ 0) (h : |a / b| ≤ 2 ^ 64) :
    ∃ q, (F32.fin a) / (F32.fin b) = .fin q ∧ IsNearest q (a / b) := by
  refine ⟨roundQ (a / b), ?_, nearest_roundQ h⟩
  rw [fin_div _ _ hb, round_small h]

theorem rtd_resistance (n k : ℕ) (e : ℕ) (hn : n = k * 2 ^ e) (hk : k ≤ 128) (he : e ≤ 5) (w : Word) :
    ∃ q, rtdResistance (n : ℚ) w = .fin q ∧ IsNearest q (n * w.toNat / 27648) := by
  have hw := w.isLt
  have hn' : n ≤ 4096 := by
    rw [hn]
    exact (Nat.mul_le_mul hk (Nat.pow_le_pow_right (by norm_num) he)).trans (by norm_num)
  have h1 : F32.lit (n : ℚ) = .fin n := by
    have := lit_int (n : ℤ) (by rw [abs_of_nonneg (by positivity)]; norm_num; omega)
    exact_mod_cast this
  have h2 : F32.lit (w.toNat : ℚ) = .fin w.toNat := by
    have := lit_int (w.toNat : ℤ) (by rw [abs_of_nonneg (by positivity)]; norm_num; omega)
    exact_mod_cast this
  have h3 : F32.lit 27648 = .fin 27648 := by
    have := lit_int 27648 (by norm_num)
    exact_mod_cast this
  have hb : (n : ℚ) * w.toNat ≤ 2 ^ 28 := by
    have : n * w.toNat ≤ 4096 * 65536 := Nat.mul_le_mul hn' (by omega)
    calc (n : ℚ) * w.toNat = ((n * w.toNat : ℕ) : ℚ) := by push_cast; ring
      _ ≤ ((4096 * 65536 : ℕ) : ℚ) := by exact_mod_cast this
      _ = 2 ^ 28 := by norm_num
  have hp : (0 : ℚ) ≤ n * w.toNat := by positivity
  have h4 : F32.round ((n : ℚ) * w.toNat) = .fin (n * w.toNat) := by
    apply round_of_repr
    · refine ⟨(k * w.toNat : ℕ), e, ?_, by omega, ?_⟩
      · rw [abs_of_nonneg (by positivity)]
        have : k * w.toNat ≤ 128 * 65536 := Nat.mul_le_mul hk (by omega)
        norm_num at this ⊢
        omega
      · rw [hn, zpow_natCast]
        push_cast
        ring
    · rw [abs_of_nonneg hp]
      exact hb.trans (by norm_num)
  unfold rtdResistance
  rw [h1, h2, fin_mul, h4]
  rw [h3]
  apply div_nearest (by norm_num)
  rw [abs_of_nonneg (by positivity)]
  have := div_le_self hp (show (1 : ℚ) ≤ 27648 by norm_num)
  linarith

theorem rtd_tenths (w : Word) :
    ∃ q, wordToF32 w / F32.lit 10 = .fin q ∧ IsNearest q (w.toInt / 10) := by
  have h3 : F32.lit 10 = .fin 10 := by
    have := lit_int 10 (by norm_num)
    exact_mod_cast this
  rw [lit_word, h3]
  apply div_nearest (by norm_num)
  have := word_abs w
  rw [abs_div, abs_of_pos (show (0 : ℚ) < 10 by norm_num)]
  linarith

theorem rtd_value (r : RtdRange) (w : Word) :
    match rtdExact r with
    | none => u16ToRtdValue w r = none
    | some f => ∃ q, u16ToRtdValue w r = some (.fin q) ∧ IsNearest q (f w) := by
  have hR : ∀ (n k e : ℕ), n = k * 2 ^ e → k ≤ 128 → e ≤ 5 →
      ∃ q, some (rtdResistance (n : ℚ) w) = some (.fin q) ∧ IsNearest q (n * w.toNat / 27648) := by
    intro n k e h1 h2 h3
    obtain ⟨q, h4, h5⟩ := rtd_resistance n k e h1 h2 h3 w
    exact ⟨q, by rw [h4], h5⟩
  have hT : ∃ q, some (wordToF32 w / F32.lit 10) = some (.fin q) ∧ IsNearest q (w.toInt / 10) := by
    obtain ⟨q, h4, h5⟩ := rtd_tenths w
    exact ⟨q, by rw [h4], h5⟩
  cases r <;> simp only [rtdExact, u16ToRtdValue] <;> try exact hT
  · exact hR 40 5 3 (by norm_num) (by norm_num) (by norm_num)
  · exact hR 80 5 4 (by norm_num) (by norm_num) (by norm_num)
  · exact hR 150 75 1 (by norm_num) (by norm_num) (by norm_num)
  · exact hR 300 75 2 (by norm_num) (by norm_num) (by norm_num)
  · exact hR 500 125 2 (by norm_num) (by norm_num) (by norm_num)
  · exact hR 1000 125 3 (by norm_num) (by norm_num) (by norm_num)
  · exact hR 2000 125 4 (by norm_num) (by norm_num) (by norm_num)
  · exact hR 4000 125 5 (by norm_num) (by norm_num) (by norm_num)

/-- C56: every channel of a resistance thermometer module gives the single precision number nearest
to its exact reading, or `Disabled`. -/
theorem C56_rtd (t : ModuleType) (par : List Word) (m : Rtd.Mod)
    (hc : Module.create t par = .ok (.rtd m)) (ws : List Word) (hl : ws.length = 4) :
    ∃ vs, (Module.rtd m).processInputData ws = .ok vs ∧ vs.length = 4 ∧ m.chParams.length = 4 ∧
      ∀ (i : Nat) w p, ws[i]? = some w → m.chParams[i]? = some p →
        ∃ v, vs[i]? = some v ∧
          match rtdExact p.measurementRange with
          | none => v = .disabled
          | some f => ∃ q, v = .decimal32 (.fin q) ∧ IsNearest q (f w) := by
  have hg := create_good hc
  cases t <;> simp only [IsCreated] at hg
  refine ⟨List.zipWith (fun w (p : Rtd.ChannelParameters) =>
    decimalOrDisabled (u16ToRtdValue w p.measurementRange)) ws m.chParams, ?_, by simp [hl, hg], hg, ?_⟩
  · simp only [Module.processInputData, Rtd.Mod.processInputData]
    rw [if_neg (by omega), if_neg (by omega)]
    apply mapRes_range (by simp [hl, hg])
    intro i a h
    obtain ⟨w, p, h1, h2, rfl⟩ := List.getElem?_zipWith_eq_some.1 h
    simp only [idx, h1, h2]
    rfl
  · intro i w p hw hp
    refine ⟨_, List.getElem?_zipWith_eq_some.2 ⟨w, p, hw, hp, rfl⟩, ?_⟩
    have := rtd_value p.measurementRange w
    cases h : rtdExact p.measurementRange with
    | none => rw [h] at this; simp only at this ⊢; rw [this]; rfl
    | some f =>
      rw [h] at this
      obtain ⟨q, h1, h2⟩ := this
      exact ⟨q, by rw [h1]; rfl, h2⟩

/-- Parameters of a resistance thermometer module: a Pt100, a resistance of 4000 ohms and two
disabled channels. -/
def exRtdParams : List Word :=
  [0#16] ++ [0#16, 0#16, 0#16, 0#16, 0#16, 0#16, 0#16] ++ [17#16, 0#16, 0#16, 0#16, 0#16, 0#16, 0#16]
    ++ [18#16, 0#16, 0#16, 0#16, 0#16, 0#16, 0#16] ++ [18#16, 0#16, 0#16, 0#16, 0#16, 0#16, 0#16]

example : (do
    let m ← Module.create .UR20_4AI_RTD_DIAG exRtdParams
    m.processInputData [0xFF38#16, 0x3600#16, 1#16, 2#16]) =
    .ok [.decimal32 (.fin (-20)), .decimal32 (.fin 2000), .disabled, .disabled] := by decide +kernel

/-! ### C57 -/

theorem lit_tenth : ∃ q, F32.lit (1 / 10) = .fin q ∧ |q - 1 / 10| ≤ 1 / 10 / 2 ^ 25 ∧ |q| ≤ 1 := by
  refine ⟨13421773 / 134217728, by decide +kernel, ?_, ?_⟩
  · rw [abs_le]; constructor <;> norm_num
  · rw [abs_le]; constructor <;> norm_num

theorem tc_tenths (w : Word) :
    ∃ q, wordToF32 w * F32.lit (1 / 10) = .fin q ∧ Single q ∧
      |q - w.toInt / 10| ≤ |(w.toInt : ℚ) / 10| / 2 ^ 23 := by
  obtain ⟨c, h1, h2, h3⟩ := lit_tenth
  have hw := word_abs w
  have hb : |(w.toInt : ℚ) * c| ≤ 2 ^ 16 := by
    rw [abs_mul]
    have := mul_le_mul hw h3 (abs_nonneg c) (by norm_num)
    linarith
  have hb' : |(w.toInt : ℚ) * c| ≤ 2 ^ 64 := hb.trans (by norm_num)
  refine ⟨roundQ (w.toInt * c), ?_, ?_, ?_⟩
  · rw [lit_word, h1, fin_mul, round_small hb']
  · exact (nearest_roundQ hb').1
  · have ha : |(w.toInt : ℚ) * c - w.toInt / 10| ≤ |(w.toInt : ℚ) / 10| / 2 ^ 25 := by
      have e : (w.toInt : ℚ) * c - w.toInt / 10 = w.toInt * (c - 1 / 10) := by ring
      rw [e, abs_mul, abs_div, abs_of_pos (show (0 : ℚ) < 10 by norm_num)]
      have := mul_le_mul_of_nonneg_left h2 (abs_nonneg (w.toInt : ℚ))
      linarith
    by_cases h0 : w.toInt = 0
    · rw [h0]
      simp [roundQ_zero]
    · have hr : |roundQ (w.toInt * c) - w.toInt * c| ≤ |(w.toInt : ℚ) * c| / 2 ^ 24 := by
        have e : ∀ y : ℚ, (2 : ℚ) ^ (-24 : ℤ) * |y| = |y| / 2 ^ 24 := fun y => by
          rw [zpow_neg, div_eq_mul_inv, mul_comm]; norm_cast
        rw [← e]
        apply roundQ_rel
        right
        have h1' : (1 : ℚ) ≤ |(w.toInt : ℚ)| := by
          have := Int.one_le_abs h0
          exact_mod_cast this
        have hc : (1 : ℚ) / 20 ≤ |c| := by
          rw [abs_le] at h2
          refine le_trans ?_ (le_abs_self c)
          have := h2.1
          linarith
        rw [abs_mul]
        have := mul_le_mul h1' hc (by norm_num) (abs_nonneg _)
        refine le_trans ?_ this
        norm_num
      have hm : |(w.toInt : ℚ) * c| ≤ |(w.toInt : ℚ) / 10| + |(w.toInt : ℚ) / 10| / 2 ^ 25 := by
        have e : (w.toInt : ℚ) * c = w.toInt / 10 + (w.toInt * c - w.toInt / 10) := by ring
        rw [e]
        refine (abs_add_le _ _).trans ?_
        linarith
      have e : roundQ (w.toInt * c) - (w.toInt : ℚ) / 10 =
          (roundQ (w.toInt * c) - w.toInt * c) + (w.toInt * c - w.toInt / 10) := by ring
      rw [e]
      refine (abs_add_le _ _).trans ?_
      have hpos : (0 : ℚ) ≤ |(w.toInt : ℚ) / 10| := abs_nonneg _
      generalize |(w.toInt : ℚ) / 10| = y at *
      linarith

theorem tc_volts (k : ℤ) (hk : -6 ≤ k) (hk' : k ≤ 1) (w : Word) :
    ∃ q, F32.lit ((2 : ℚ) ^ k) * wordToF32 w / F32.lit 32767 = .fin q ∧
      IsNearest q ((2 : ℚ) ^ k * w.toInt / 32767) := by
  have hw := word_abs w
  have hp : (0 : ℚ) < (2 : ℚ) ^ k := two_zpow_pos k
  have h2 : (2 : ℚ) ^ k ≤ 2 := by
    have := zpow_le_zpow_right₀ (a := (2 : ℚ)) (by norm_num) hk'
    simpa using this
  have h1 : F32.lit ((2 : ℚ) ^ k) = .fin ((2 : ℚ) ^ k) := by
    apply round_of_repr (repr_two_pow k (by omega))
    rw [abs_of_pos hp]
    exact h2.trans (by norm_num)
  have h3 : F32.lit 32767 = .fin 32767 := by
    have := lit_int 32767 (by norm_num)
    exact_mod_cast this
  have hb : |(2 : ℚ) ^ k * w.toInt| ≤ 2 ^ 17 := by
    rw [abs_mul, abs_of_pos hp]
    have := mul_le_mul h2 hw (abs_nonneg _) (by norm_num)
    linarith
  have h4 : F32.round ((2 : ℚ) ^ k * w.toInt) = .fin ((2 : ℚ) ^ k * w.toInt) := by
    apply round_of_repr
    · refine ⟨w.toInt, k, ?_, by omega, by ring⟩
      have : |w.toInt| ≤ 32768 := by exact_mod_cast hw
      linarith
    · exact hb.trans (by norm_num)
  rw [h1, lit_word, fin_mul, h4, h3]
  apply div_nearest (by norm_num)
  rw [abs_div, abs_of_pos (show (0 : ℚ) < 32767 by norm_num)]
  have := div_le_self (abs_nonneg ((2 : ℚ) ^ k * w.toInt)) (show (1 : ℚ) ≤ 32767 by norm_num)
  linarith

theorem tc_range_value (r : TcRange) (w : Word) (x : ℚ) (h : tcVolts r = some x) :
    ∃ q, u16ToThermalValue w r = some (.fin q) ∧ IsNearest q (x * w.toInt / 32767) := by
  have hV : ∀ k : ℤ, -6 ≤ k → k ≤ 1 → ∀ y : ℚ, y = (2 : ℚ) ^ k →
      ∃ q, some (F32.lit y * wordToF32 w / F32.lit 32767) = some (.fin q) ∧
        IsNearest q (y * w.toInt / 32767) := by
    rintro k h1 h2 y rfl
    obtain ⟨q, h3, h4⟩ := tc_volts k h1 h2 w
    exact ⟨q, by rw [h3], h4⟩
  cases r <;> simp only [tcVolts, Option.some.injEq, reduceCtorEq] at h <;> subst h <;>
    simp only [u16ToThermalValue]
  · exact hV (-6) (by norm_num) (by norm_num) _ (by norm_num)
  · exact hV (-5) (by norm_num) (by norm_num) _ (by norm_num)
  · exact hV (-4) (by norm_num) (by norm_num) _ (by norm_num)
  · exact hV (-3) (by norm_num) (by norm_num) _ (by norm_num)
  · exact hV (-2) (by norm_num) (by norm_num) _ (by norm_num)
  · exact hV (-1) (by norm_num) (by norm_num) _ (by norm_num)
  · exact hV 0 (by norm_num) (by norm_num) _ (by norm_num)
  · exact hV 1 (by norm_num) (by norm_num) _ (by norm_num)

theorem tc_thermo_value (r : TcRange) (w : Word) (h : tcVolts r = none) (hd : r ≠ .Disabled) :
    (w = 32767#16 → u16ToThermalValue w r = none) ∧
    (w ≠ 32767#16 → ∃ q, u16ToThermalValue w r = some (.fin q) ∧ Single q ∧
      |q - w.toInt / 10| ≤ |(w.toInt : ℚ) / 10| / 2 ^ 23) := by
  have key : u16ToThermalValue w r =
      if w = 32767#16 then none else some (wordToF32 w * F32.lit (1 / 10)) := by
    cases r <;> first | rfl | exact absurd rfl hd | simp [tcVolts] at h
  rw [key]
  constructor
  · intro h; rw [if_pos h]
  · intro h
    rw [if_neg h]
    obtain ⟨q, h1, h2⟩ := tc_tenths w
    exact ⟨q, by rw [h1], h2⟩

/-- C57: every channel of a thermocouple module gives tenths of the temperature unit up to a
relative error of `2 ^ -23`, or no value for the register 32767; in a voltage range it gives the
single precision number nearest to the fraction of 32767 of the range; and else `Disabled`. -/
theorem C57_thermocouple (m : Tc.Mod) (ws : List Word) (hl : ws.length = 4) :
    ∃ vs, (Module.tc m).processInputData ws = .ok vs ∧ vs.length = 4 ∧
      ∀ (i : Nat) (w : Word) p, ws[i]? = some w → m.chParams.toList[i]? = some p →
        ∃ v, vs[i]? = some v ∧
          (p.measurementRange = .Disabled → v = .disabled) ∧
          (∀ x, tcVolts p.measurementRange = some x →
            ∃ q, v = .decimal32 (.fin q) ∧ IsNearest q (x * w.toInt / 32767)) ∧
          (p.measurementRange ≠ .Disabled → tcVolts p.measurementRange = none →
            (w.toInt = 32767 → v = .none) ∧
            (w.toInt ≠ 32767 → ∃ q, v = .decimal32 (.fin q) ∧ Single q ∧
              |q - w.toInt / 10| ≤ |(w.toInt : ℚ) / 10| / 2 ^ 23)) := by
  refine ⟨List.zipWith Tc.value ws m.chParams.toList, ?_, by simp [hl], ?_⟩
  · simp only [Module.processInputData, Tc.Mod.processInputData]
    rw [if_neg (by omega)]
  · intro i w p hw hp
    refine ⟨_, List.getElem?_zipWith_eq_some.2 ⟨w, p, hw, hp, rfl⟩, ?_, ?_, ?_⟩
    · intro h
      simp [Tc.value, Tc.ChannelParameters.isEnabled, h]
    · intro x h
      obtain ⟨q, h1, h2⟩ := tc_range_value _ w x h
      refine ⟨q, ?_, h2⟩
      have hd : p.measurementRange ≠ .Disabled := by rintro h'; rw [h'] at h; simp [tcVolts] at h
      simp [Tc.value, Tc.ChannelParameters.isEnabled, hd, h1]
    · intro hd h
      obtain ⟨h1, h2⟩ := tc_thermo_value _ w h hd
      have hiff : w.toInt = 32767 ↔ w = 32767#16 := by
        rw [← BitVec.toInt_inj]
        rfl
      constructor
      · intro hw'
        simp [Tc.value, Tc.ChannelParameters.isEnabled, hd, h1 (hiff.1 hw')]
      · intro hw'
        obtain ⟨q, h3, h4⟩ := h2 (fun e => hw' (hiff.2 e))
        refine ⟨q, ?_, h4⟩
        simp [Tc.value, Tc.ChannelParameters.isEnabled, hd, h3]

/-- A thermocouple, a voltage range and a disabled channel: 25 degrees, no value, half of 125 mV
rounded to the nearest number, and `Disabled`. -/
example : Tc.value 250#16 ⟨.TC_Type_K, .Internal, .ms80, false, false, 0, 0⟩ =
    .decimal32 (.fin 25) := by decide +kernel
example : Tc.value 32767#16 ⟨.TC_Type_K, .Internal, .ms80, false, false, 0, 0⟩ = .none := by
  decide +kernel
example : Tc.value 32767#16 ⟨.mVPlusMinus125, .Internal, .ms80, false, false, 0, 0⟩ =
    .decimal32 (.fin (1 / 8)) := by decide +kernel

end Ur20
