import Verif.Lemmas.AnalogModules

/-! # Frequencies: C49 -/

namespace Ur20

open F32

theorem roundQ_bounds {q : ℚ} (h : (2 : ℚ) ^ (-126 : ℤ) ≤ q) :
    (1 - 1 / 2 ^ 24) * q ≤ roundQ q ∧ roundQ q ≤ (1 + 1 / 2 ^ 24) * q := by
  have hp : 0 < q := lt_of_lt_of_le (two_zpow_pos _) h
  have := roundQ_rel q (Or.inr (by rwa [abs_of_pos hp]))
  rw [abs_of_pos hp, abs_le] at this
  have e : (2 : ℚ) ^ (-24 : ℤ) = 1 / 2 ^ 24 := by norm_num
  rw [e] at this
  constructor <;> linarith [this.1, this.2]

/-- Rounding zero or a number that is not tiny. -/
theorem roundQ_bounds' {q : ℚ} (h0 : 0 ≤ q) (h : q = 0 ∨ 1 / 2 ^ 100 ≤ q) :
    (1 - 1 / 2 ^ 24) * q ≤ roundQ q ∧ roundQ q ≤ (1 + 1 / 2 ^ 24) * q := by
  rcases h with rfl | h
  · simp [roundQ_zero]
  · exact roundQ_bounds (le_trans (by norm_num) h)

theorem nat_zero_or (n : ℕ) : (n : ℚ) = 0 ∨ (1 : ℚ) ≤ n := by
  rcases Nat.eq_zero_or_pos n with h | h
  · left; exact_mod_cast h
  · right; exact_mod_cast h

theorem lit_nat (n : ℕ) (h : n < 2 ^ 64) : F32.lit (n : ℚ) = .fin (roundQ n) := by
  apply round_small
  rw [abs_of_nonneg (by positivity)]
  exact_mod_cast h.le

/-- The divisor of `hertz`. -/
theorem seconds_near (d : ℕ) (hd : 0 < d) (hb : d < 2 ^ 64 * 1000000000) :
    ∃ s : ℚ, F32.lit ((d / 1000000000 : ℕ) : ℚ)
        + F32.lit ((d % 1000000000 : ℕ) : ℚ) / F32.lit 1000000000 = .fin s ∧
      (1 - 1 / 2 ^ 24) ^ 3 * (d / 10 ^ 9) ≤ s ∧ s ≤ (1 + 1 / 2 ^ 24) ^ 3 * (d / 10 ^ 9) := by
  have h1 := Nat.div_add_mod d 1000000000
  have h2 : d % 1000000000 < 1000000000 := Nat.mod_lt _ (by norm_num)
  have h3 : d / 1000000000 < 2 ^ 64 := by omega
  have hs : F32.lit 1000000000 = .fin 1000000000 := by decide +kernel
  generalize d / 1000000000 = a at *
  generalize d % 1000000000 = b at *
  have hdq : (d : ℚ) / 10 ^ 9 = a + b / 10 ^ 9 := by
    rw [← h1]
    push_cast
    ring
  have a0 : (0 : ℚ) ≤ a := by positivity
  have b0 : (0 : ℚ) ≤ b := by positivity
  have ha : (a : ℚ) ≤ 2 ^ 64 := by exact_mod_cast h3.le
  have hb' : (b : ℚ) ≤ 10 ^ 9 := by
    have : b ≤ 10 ^ 9 := by norm_num; omega
    exact_mod_cast this
  rw [lit_nat a h3, lit_nat b (by omega), hs]
  obtain ⟨a1, a2⟩ := roundQ_bounds' a0 ((nat_zero_or a).imp id (le_trans (by norm_num)))
  obtain ⟨b1, b2⟩ := roundQ_bounds' b0 ((nat_zero_or b).imp id (le_trans (by norm_num)))
  have b3 : 0 ≤ roundQ b := le_trans (by positivity) b1
  have hq : roundQ b / 1000000000 = 0 ∨ (1 : ℚ) / 2 ^ 100 ≤ roundQ b / 1000000000 := by
    rcases nat_zero_or b with h | h
    · left; rw [h, roundQ_zero]; simp
    · right
      have : (1 : ℚ) / 2 ≤ roundQ b := by linarith
      linarith
  obtain ⟨c1, c2⟩ := roundQ_bounds' (by positivity : 0 ≤ roundQ b / 1000000000) hq
  have hqs : |roundQ b / 1000000000| ≤ 2 ^ 64 := by
    rw [abs_of_nonneg (by positivity)]
    linarith
  rw [fin_div _ _ (by norm_num), round_small hqs, fin_add]
  have s0 : 0 ≤ roundQ a := le_trans (by positivity) a1
  have s1 : 0 ≤ roundQ (roundQ b / 1000000000) := le_trans (by positivity) c1
  have hlow : 1 / 2 ^ 100 ≤ roundQ (a : ℚ) + roundQ (roundQ b / 1000000000) := by
    rcases nat_zero_or a with h | h
    · rcases nat_zero_or b with h' | h'
      · exfalso
        have e1 : a = 0 := by exact_mod_cast h
        have e2 : b = 0 := by exact_mod_cast h'
        omega
      · linarith
    · linarith
  obtain ⟨d1, d2⟩ := roundQ_bounds' (by positivity : 0 ≤ roundQ (a : ℚ) + roundQ (roundQ b / 1000000000))
    (Or.inr hlow)
  refine ⟨roundQ (roundQ (a : ℚ) + roundQ (roundQ b / 1000000000)), ?_, ?_, ?_⟩
  · apply F32.round_eq
    rw [abs_of_nonneg (by positivity)]
    refine le_trans (b := 2 ^ 65 + 4) ?_ (by norm_num)
    linarith
  · rw [hdq]
    refine le_trans ?_ d1
    linarith
  · rw [hdq]
    refine d2.trans ?_
    linarith

/-- C49: no frequency without a duration. -/
theorem C49_none (v : FcntIn) : Fcnt.hertz v = none ↔ v.duration = none := by
  unfold Fcnt.hertz
  cases v.duration <;> simp

/-- C49: with a non-zero duration of `d` nanoseconds the frequency is the count divided by the
duration, up to a relative error of `2 ^ -21`. (A `Duration` has less than `2 ^ 64` seconds.) -/
theorem C49_accuracy (v : FcntIn) (d : ℕ) (h : v.duration = some d) (hd : 0 < d)
    (hb : d < 2 ^ 64 * 1000000000) :
    ∃ q, Fcnt.hertz v = some (.fin q) ∧
      |q - (v.count.toNat : ℚ) / (d / 10 ^ 9)| ≤ (v.count.toNat : ℚ) / (d / 10 ^ 9) / 2 ^ 21 := by
  obtain ⟨s, h1, h2, h3⟩ := seconds_near d hd hb
  have hc := v.count.isLt
  have hd' : (1 : ℚ) ≤ d := by exact_mod_cast hd
  have hdb : (d : ℚ) ≤ 2 ^ 94 := by
    have : d ≤ 2 ^ 94 := by norm_num at hb ⊢; omega
    exact_mod_cast this
  have e9 : (0 : ℚ) < d / 10 ^ 9 := by positivity
  have hs : 0 < s := lt_of_lt_of_le (by positivity) h2
  have hsl : 1 / 2 ^ 40 ≤ s := by
    have : (1 : ℚ) / 10 ^ 9 ≤ d / 10 ^ 9 := by linarith
    refine le_trans ?_ h2
    linarith
  unfold Fcnt.hertz
  rw [h]
  simp only [Option.map_some, Option.some.injEq]
  rw [h1, lit_nat _ (by omega), fin_div _ _ hs.ne']
  generalize v.count.toNat = n at *
  have n0 : (0 : ℚ) ≤ n := by positivity
  have hn : (n : ℚ) ≤ 2 ^ 32 := by exact_mod_cast hc.le
  obtain ⟨a1, a2⟩ := roundQ_bounds' n0 ((nat_zero_or n).imp id (le_trans (by norm_num)))
  have hr0 : 0 ≤ roundQ (n : ℚ) := le_trans (by positivity) a1
  generalize hx : (d : ℚ) / 10 ^ 9 = x at *
  have hxb : x ≤ 2 ^ 65 := by rw [← hx]; linarith
  have hq : roundQ (n : ℚ) / s = 0 ∨ (1 : ℚ) / 2 ^ 100 ≤ roundQ (n : ℚ) / s := by
    rcases nat_zero_or n with h | h
    · left; rw [h, roundQ_zero]; simp
    · right
      rw [le_div_iff₀ hs]
      have : s ≤ 2 ^ 66 := by linarith
      linarith
  obtain ⟨b1, b2⟩ := roundQ_bounds' (div_nonneg hr0 hs.le) hq
  refine ⟨_, F32.round_eq ?_, ?_⟩
  · rw [abs_of_nonneg (div_nonneg hr0 hs.le), div_le_iff₀ hs]
    have : (2 : ℚ) ^ (127 : ℤ) * (1 / 2 ^ 40) ≤ 2 ^ (127 : ℤ) * s :=
      mul_le_mul_of_nonneg_left hsl (by positivity)
    have e : (2 : ℚ) ^ 34 ≤ 2 ^ (127 : ℤ) * (1 / 2 ^ 40) := by norm_num
    linarith
  · have hy : 0 ≤ (n : ℚ) / x := by positivity
    -- the quotient before the last rounding
    have c1 : (1 - 1 / 2 ^ 24) * (n / x) ≤ (1 + 1 / 2 ^ 24) ^ 3 * (roundQ n / s) := by
      rw [mul_div_assoc', mul_div_assoc', div_le_div_iff₀ e9 hs]
      calc (1 - 1 / 2 ^ 24) * (n : ℚ) * s ≤ roundQ n * s := mul_le_mul_of_nonneg_right a1 hs.le
        _ ≤ roundQ n * ((1 + 1 / 2 ^ 24) ^ 3 * x) := mul_le_mul_of_nonneg_left h3 hr0
        _ = (1 + 1 / 2 ^ 24) ^ 3 * roundQ n * x := by ring
    have c2 : (1 - 1 / 2 ^ 24) ^ 3 * (roundQ n / s) ≤ (1 + 1 / 2 ^ 24) * (n / x) := by
      rw [mul_div_assoc', mul_div_assoc', div_le_div_iff₀ hs e9]
      calc (1 - 1 / 2 ^ 24) ^ 3 * roundQ (n : ℚ) * x = roundQ n * ((1 - 1 / 2 ^ 24) ^ 3 * x) := by ring
        _ ≤ roundQ n * s := mul_le_mul_of_nonneg_left h2 hr0
        _ ≤ (1 + 1 / 2 ^ 24) * (n : ℚ) * s := mul_le_mul_of_nonneg_right a2 hs.le
    generalize (n : ℚ) / x = y at *
    generalize roundQ (n : ℚ) / s = z at *
    rw [abs_le]
    constructor <;> linarith

/-- C49: a duration of zero gives infinity, or NaN for a count of zero. -/
theorem C49_zero (v : FcntIn) (h : v.duration = some 0) :
    Fcnt.hertz v = some (if v.count = 0#32 then .nan else .inf false) := by
  unfold Fcnt.hertz
  rw [h]
  have e : F32.lit ((0 / 1000000000 : ℕ) : ℚ)
      + F32.lit ((0 % 1000000000 : ℕ) : ℚ) / F32.lit 1000000000 = .fin 0 := by decide +kernel
  simp only [Option.map_some, e, Option.some.injEq]
  rw [lit_nat _ (by have := v.count.isLt; omega)]
  show F32.div _ _ = _
  simp only [F32.div, if_true]
  by_cases hc : v.count = 0#32
  · rw [if_pos hc, hc]
    simp [roundQ_zero]
  · rw [if_neg hc]
    have h1 : (1 : ℚ) ≤ v.count.toNat := by
      have : v.count.toNat ≠ 0 := fun h0 => hc (BitVec.eq_of_toNat_eq h0)
      have : 1 ≤ v.count.toNat := by omega
      exact_mod_cast this
    obtain ⟨a1, -⟩ := roundQ_bounds' (by positivity : (0 : ℚ) ≤ v.count.toNat)
      (Or.inr (le_trans (by norm_num) h1))
    have hp : 0 < roundQ (v.count.toNat : ℚ) := lt_of_lt_of_le (by linarith) a1
    rw [if_neg hp.ne', decide_eq_false (by linarith)]

example : Fcnt.hertz ⟨some 2500000000, 1000#32, true⟩ = some (.fin 400) := by decide +kernel

end Ur20
