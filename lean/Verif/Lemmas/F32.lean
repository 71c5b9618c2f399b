import Mathlib.Algebra.Order.Field.Power
import Mathlib.Algebra.Order.Floor.Ring
import Mathlib.Data.Rat.Floor
import Mathlib.Tactic.Linarith
import Mathlib.Tactic.Positivity
import Mathlib.Tactic.Ring
import Mathlib.Tactic.FieldSimp
import Mathlib.Tactic.NormNum
import Verif.Model.F32

/-!
# Facts about the single precision model

`F32.roundQ` returns a representable number, is the identity on representable numbers, returns a
nearest representable number and is monotone.
-/

namespace Ur20

theorem pow2_eq (z : Int) : pow2 z = (2 : ℚ) ^ z := by
  cases z with
  | ofNat n => simp [pow2]
  | negSucc n =>
    rw [pow2, zpow_negSucc, Rat.mkRat_eq_div]
    push_cast
    rw [one_div]

theorem ratAbs_eq (q : ℚ) : ratAbs q = |q| := by
  unfold ratAbs
  split
  · rw [abs_of_neg ‹_›]
  · rw [abs_of_nonneg (not_lt.mp ‹_›)]

theorem abs_eq_div (q : ℚ) : |q| = (q.num.natAbs : ℚ) / (q.den : ℚ) := by
  conv_lhs => rw [← Rat.num_div_den q]
  rw [abs_div, Nat.abs_cast, Nat.cast_natAbs, Int.cast_abs]

theorem ilog2_le (q : ℚ) (h : q ≠ 0) : (2 : ℚ) ^ ilog2 q ≤ |q| ∧ |q| < (2 : ℚ) ^ (ilog2 q + 1) := by
  have hn : q.num.natAbs ≠ 0 := by simpa using h
  have hd : q.den ≠ 0 := q.den_nz
  have n1 := Nat.log2_self_le hn
  have n2 := @Nat.lt_log2_self q.num.natAbs
  have d1 := Nat.log2_self_le hd
  have d2 := @Nat.lt_log2_self q.den
  have hdp : (0 : ℚ) < q.den := by exact_mod_cast Nat.pos_of_ne_zero hd
  generalize hln : Nat.log2 q.num.natAbs = ln at *
  generalize hld : Nat.log2 q.den = ld at *
  have e : ilog2 q = if (2 : ℚ) ^ ((ln : ℤ) - ld) ≤ |q| then (ln : ℤ) - ld else (ln : ℤ) - ld - 1 := by
    simp only [ilog2, hln, hld, pow2_eq, ratAbs_eq]
  have n1' : (2 : ℚ) ^ ln ≤ q.num.natAbs := by exact_mod_cast n1
  have n2' : (q.num.natAbs : ℚ) < 2 ^ (ln + 1) := by exact_mod_cast n2
  have d1' : (2 : ℚ) ^ ld ≤ q.den := by exact_mod_cast d1
  have d2' : (q.den : ℚ) < 2 ^ (ld + 1) := by exact_mod_cast d2
  have hup : |q| < (2 : ℚ) ^ ((ln : ℤ) - ld + 1) := by
    rw [abs_eq_div, div_lt_iff₀ hdp]
    calc (q.num.natAbs : ℚ) < 2 ^ (ln + 1) := n2'
      _ = (2 : ℚ) ^ ((ln : ℤ) - ld + 1) * 2 ^ ld := by
        rw [← zpow_natCast, ← zpow_natCast, ← zpow_add₀ (by norm_num)]
        congr 1; push_cast; ring
      _ ≤ _ := by gcongr
  have hlo : (2 : ℚ) ^ ((ln : ℤ) - ld - 1) ≤ |q| := by
    rw [abs_eq_div, le_div_iff₀ hdp]
    calc (2 : ℚ) ^ ((ln : ℤ) - ld - 1) * q.den ≤ (2 : ℚ) ^ ((ln : ℤ) - ld - 1) * 2 ^ (ld + 1) := by
          gcongr
      _ = 2 ^ ln := by
        rw [← zpow_natCast, ← zpow_natCast, ← zpow_add₀ (by norm_num)]
        congr 1; push_cast; ring
      _ ≤ _ := n1'
  rw [e]
  split
  · exact ⟨‹_›, hup⟩
  · refine ⟨hlo, ?_⟩
    rw [sub_add_cancel]
    exact not_le.mp ‹_›

/-! ### Nearest integer -/

theorem roundEven_spec (q : ℚ) : |(roundEven q : ℚ) - q| ≤ 1 / 2 := by
  have h1 : ((q.floor : ℤ) : ℚ) ≤ q := Rat.floor_le q
  have h2 : q < (q.floor : ℚ) + 1 := by exact_mod_cast Rat.lt_floor_add_one q
  unfold roundEven
  simp only
  split_ifs <;> rw [abs_le] <;> constructor <;> push_cast <;> linarith

theorem roundEven_nearest (q : ℚ) (n : ℤ) : |(roundEven q : ℚ) - q| ≤ |(n : ℚ) - q| := by
  by_cases h : n = roundEven q
  · rw [h]
  have h1 := roundEven_spec q
  have h2 : (1 : ℚ) ≤ |(n : ℚ) - roundEven q| := by
    have : (1 : ℤ) ≤ |n - roundEven q| := Int.one_le_abs (sub_ne_zero.mpr h)
    exact_mod_cast this
  have h3 : |(n : ℚ) - roundEven q| ≤ |(n : ℚ) - q| + |(roundEven q : ℚ) - q| := by
    rw [abs_sub_comm (roundEven q : ℚ) q]
    have := abs_sub_le (n : ℚ) q (roundEven q)
    exact this
  linarith

theorem roundEven_int (n : ℤ) : roundEven (n : ℚ) = n := by
  have h := roundEven_nearest (n : ℚ) n
  rw [sub_self, abs_zero] at h
  have h0 := abs_nonneg ((roundEven (n : ℚ) : ℚ) - n)
  have : (roundEven (n : ℚ) : ℚ) - n = 0 := abs_eq_zero.mp (le_antisymm h h0)
  exact_mod_cast sub_eq_zero.mp this

/-! ### Rounding -/

namespace F32

/-- The numbers of the format, without the bound of the largest exponent: integers of 24 bits
times a power of two not below `2 ^ -149`. -/
def Representable (q : ℚ) : Prop := ∃ m k : ℤ, |m| ≤ 2 ^ 24 ∧ -149 ≤ k ∧ q = m * (2 : ℚ) ^ k

theorem two_zpow_pos (k : ℤ) : (0 : ℚ) < (2 : ℚ) ^ k := by positivity

theorem roundQ_eq (q : ℚ) (h : q ≠ 0) :
    roundQ q = (roundEven (q * (2 : ℚ) ^ (-ulpExp q)) : ℚ) * (2 : ℚ) ^ (ulpExp q) := by
  rw [roundQ, if_neg h, pow2_eq, pow2_eq]

theorem roundQ_zero : roundQ 0 = 0 := by simp [roundQ]

theorem abs_lt_ulp (q : ℚ) (h : q ≠ 0) : |q| < (2 : ℚ) ^ (ulpExp q + 24) := by
  refine lt_of_lt_of_le (ilog2_le q h).2 ?_
  apply zpow_le_zpow_right₀ (by norm_num)
  unfold ulpExp
  omega

theorem scaled_lt (q : ℚ) (h : q ≠ 0) : |q * (2 : ℚ) ^ (-ulpExp q)| < 2 ^ 24 := by
  rw [abs_mul, abs_of_pos (two_zpow_pos _), zpow_neg, ← div_eq_mul_inv, div_lt_iff₀ (two_zpow_pos _)]
  refine lt_of_lt_of_eq (abs_lt_ulp q h) ?_
  rw [← zpow_natCast, ← zpow_add₀ (by norm_num)]
  congr 1
  push_cast
  ring

theorem repr_zero : Representable 0 := ⟨0, 0, by norm_num, by norm_num, by simp⟩

theorem roundQ_repr (q : ℚ) : Representable (roundQ q) := by
  by_cases h : q = 0
  · rw [h, roundQ_zero]; exact repr_zero
  rw [roundQ_eq q h]
  refine ⟨_, ulpExp q, ?_, ?_, rfl⟩
  · have h1 := scaled_lt q h
    have h2 := roundEven_spec (q * (2 : ℚ) ^ (-ulpExp q))
    generalize q * (2 : ℚ) ^ (-ulpExp q) = x at *
    have h3 : |(roundEven x : ℚ)| < 2 ^ 24 + 1 := by
      have := abs_sub_abs_le_abs_sub (roundEven x : ℚ) x
      linarith
    have h4 : |roundEven x| < 2 ^ 24 + 1 := by exact_mod_cast h3
    omega
  · unfold ulpExp; omega

theorem roundQ_of_repr {q : ℚ} (h : Representable q) : roundQ q = q := by
  by_cases h0 : q = 0
  · rw [h0, roundQ_zero]
  -- a significand below `2 ^ 24`
  have key : ∃ m k : ℤ, |m| < 2 ^ 24 ∧ -149 ≤ k ∧ q = m * (2 : ℚ) ^ k := by
    obtain ⟨m, k, hm, hk, hq⟩ := h
    by_cases he : |m| < 2 ^ 24
    · exact ⟨m, k, he, hk, hq⟩
    · have he : |m| = 2 ^ 24 := by omega
      rcases abs_eq (by norm_num : (0 : ℤ) ≤ 2 ^ 24) |>.mp he with e | e
      · refine ⟨2 ^ 23, k + 1, by norm_num, by omega, ?_⟩
        rw [hq, e, zpow_add₀ (by norm_num)]
        push_cast
        ring
      · refine ⟨-2 ^ 23, k + 1, by norm_num, by omega, ?_⟩
        rw [hq, e, zpow_add₀ (by norm_num)]
        push_cast
        ring
  obtain ⟨m, k, hm, hk, hq⟩ := key
  have hlt : |q| < (2 : ℚ) ^ (k + 24) := by
    rw [hq, abs_mul, abs_of_pos (two_zpow_pos _), zpow_add₀ (by norm_num), mul_comm]
    have : |(m : ℚ)| < 2 ^ 24 := by exact_mod_cast hm
    have h2 : ((2 : ℚ) ^ (24 : ℤ)) = 2 ^ 24 := by norm_num
    rw [h2]
    exact mul_lt_mul_of_pos_left this (two_zpow_pos _)
  have hi : ilog2 q < k + 24 := by
    have := lt_of_le_of_lt (ilog2_le q h0).1 hlt
    exact (zpow_lt_zpow_iff_right₀ (by norm_num)).mp this
  have hu : ulpExp q ≤ k := by unfold ulpExp; omega
  obtain ⟨n, hn⟩ : ∃ n : ℕ, k = ulpExp q + n := ⟨(k - ulpExp q).toNat, by omega⟩
  have hx : q * (2 : ℚ) ^ (-ulpExp q) = ((m * 2 ^ n : ℤ) : ℚ) := by
    have e : q * (2 : ℚ) ^ (-ulpExp q) = m * (2 : ℚ) ^ k * (2 : ℚ) ^ (-ulpExp q) := by rw [← hq]
    rw [e, mul_assoc, ← zpow_add₀ (by norm_num)]
    have : k + -ulpExp q = (n : ℤ) := by omega
    rw [this, zpow_natCast]
    push_cast
    rfl
  rw [roundQ_eq q h0, hx, roundEven_int, ← hx, mul_assoc, ← zpow_add₀ (by norm_num)]
  simp

theorem roundQ_error_ulp (q : ℚ) (h : q ≠ 0) : |roundQ q - q| ≤ (2 : ℚ) ^ (ulpExp q - 1) := by
  have h1 := roundEven_spec (q * (2 : ℚ) ^ (-ulpExp q))
  have h2 : roundQ q - q =
      ((roundEven (q * (2 : ℚ) ^ (-ulpExp q)) : ℚ) - q * (2 : ℚ) ^ (-ulpExp q)) * (2 : ℚ) ^ ulpExp q := by
    rw [roundQ_eq q h, sub_mul, mul_assoc q, ← zpow_add₀ (by norm_num)]
    simp
  rw [h2, abs_mul, abs_of_pos (two_zpow_pos _), zpow_sub₀ (by norm_num), zpow_one]
  have := mul_le_mul_of_nonneg_right h1 (two_zpow_pos (ulpExp q)).le
  linarith

/-- Absolute error of rounding a number below `2 ^ e`. -/
theorem roundQ_error (q : ℚ) (e : ℤ) (he : -125 ≤ e) (h : |q| ≤ (2 : ℚ) ^ e) :
    |roundQ q - q| ≤ (2 : ℚ) ^ (e - 25) := by
  by_cases h0 : q = 0
  · rw [h0, roundQ_zero]; simp; positivity
  by_cases hr : Representable q
  · rw [roundQ_of_repr hr, sub_self, abs_zero]; positivity
  refine le_trans (roundQ_error_ulp q h0) (zpow_le_zpow_right₀ (by norm_num) ?_)
  have h1 := (ilog2_le q h0).1
  have h2 : ilog2 q ≤ e := (zpow_le_zpow_iff_right₀ (by norm_num)).mp (h1.trans h)
  have h3 : ilog2 q ≠ e := by
    intro h3
    rw [h3] at h1
    have habs : |q| = (2 : ℚ) ^ e := le_antisymm h h1
    apply hr
    rcases abs_eq (two_zpow_pos e).le |>.mp habs with c | c
    · exact ⟨2 ^ 23, e - 23, by norm_num, by omega, by
        rw [c, zpow_sub₀ (by norm_num)]; push_cast; ring⟩
    · exact ⟨-2 ^ 23, e - 23, by norm_num, by omega, by
        rw [c, zpow_sub₀ (by norm_num)]; push_cast; norm_num; ring⟩
  unfold ulpExp
  omega

/-- Relative error of rounding a number that is not subnormal. -/
theorem roundQ_rel (q : ℚ) (h : q = 0 ∨ (2 : ℚ) ^ (-126 : ℤ) ≤ |q|) :
    |roundQ q - q| ≤ (2 : ℚ) ^ (-24 : ℤ) * |q| := by
  by_cases h0 : q = 0
  · rw [h0, roundQ_zero]; simp
  have h := h.resolve_left h0
  refine le_trans (roundQ_error_ulp q h0) ?_
  obtain ⟨h1, h2⟩ := ilog2_le q h0
  have h3 : -126 < ilog2 q + 1 := (zpow_lt_zpow_iff_right₀ (by norm_num)).mp (lt_of_le_of_lt h h2)
  have hu : ulpExp q = ilog2 q - 23 := by unfold ulpExp; omega
  rw [hu]
  have : ilog2 q - 23 - 1 = -24 + ilog2 q := by ring
  rw [this, zpow_add₀ (by norm_num)]
  exact mul_le_mul_of_nonneg_left h1 (by positivity)

theorem roundQ_nearest (q : ℚ) {r : ℚ} (hr : Representable r) : |roundQ q - q| ≤ |r - q| := by
  by_cases h0 : q = 0
  · rw [h0, roundQ_zero]; simp
  -- numbers on the grid of the last place
  have grid : ∀ n : ℤ, |roundQ q - q| ≤ |(n : ℚ) * (2 : ℚ) ^ ulpExp q - q| := by
    intro n
    have h1 := roundEven_nearest (q * (2 : ℚ) ^ (-ulpExp q)) n
    have e : ∀ a : ℚ, a * (2 : ℚ) ^ ulpExp q - q =
        (a - q * (2 : ℚ) ^ (-ulpExp q)) * (2 : ℚ) ^ ulpExp q := by
      intro a
      rw [sub_mul, mul_assoc q, ← zpow_add₀ (by norm_num)]
      simp
    rw [roundQ_eq q h0, e, e, abs_mul, abs_mul]
    exact mul_le_mul_of_nonneg_right h1 (abs_nonneg _)
  obtain ⟨m, k, hm, hk, hq⟩ := hr
  by_cases hku : ulpExp q ≤ k
  · obtain ⟨n, hn⟩ : ∃ n : ℕ, k = ulpExp q + n := ⟨(k - ulpExp q).toNat, by omega⟩
    have := grid (m * 2 ^ n)
    have e : ((m * 2 ^ n : ℤ) : ℚ) * (2 : ℚ) ^ ulpExp q = r := by
      rw [hq, hn, zpow_add₀ (by norm_num), zpow_natCast]
      push_cast
      ring
    rwa [e] at this
  · -- `r` lies below the binade of `q`
    have hu : ulpExp q = ilog2 q - 23 := by unfold ulpExp at *; omega
    have hr1 : |r| ≤ (2 : ℚ) ^ ilog2 q := by
      rw [hq, abs_mul, abs_of_pos (two_zpow_pos _)]
      have h1 : |(m : ℚ)| ≤ (2 : ℚ) ^ (24 : ℤ) := by
        have : |(m : ℚ)| ≤ 2 ^ 24 := by exact_mod_cast hm
        exact_mod_cast this
      calc |(m : ℚ)| * (2 : ℚ) ^ k ≤ (2 : ℚ) ^ (24 : ℤ) * (2 : ℚ) ^ k :=
            mul_le_mul_of_nonneg_right h1 (two_zpow_pos _).le
        _ = (2 : ℚ) ^ (24 + k) := by rw [zpow_add₀ (by norm_num)]
        _ ≤ _ := zpow_le_zpow_right₀ (by norm_num) (by omega)
    have hq1 := (ilog2_le q h0).1
    have e23 : ((2 ^ 23 : ℤ) : ℚ) * (2 : ℚ) ^ ulpExp q = (2 : ℚ) ^ ilog2 q := by
      rw [hu, zpow_sub₀ (by norm_num)]
      push_cast
      ring
    rcases lt_or_gt_of_ne h0 with hneg | hpos
    · have := grid (-2 ^ 23)
      have e : ((-2 ^ 23 : ℤ) : ℚ) * (2 : ℚ) ^ ulpExp q = -(2 : ℚ) ^ ilog2 q := by
        rw [← e23]; push_cast; ring
      rw [e] at this
      refine this.trans ?_
      rw [abs_of_neg hneg] at hq1
      have := (abs_le.mp hr1).1
      rw [abs_of_nonneg (by linarith), abs_of_nonneg (by linarith)]
      linarith
    · have := grid (2 ^ 23)
      rw [e23] at this
      refine this.trans ?_
      rw [abs_of_pos hpos] at hq1
      have := (abs_le.mp hr1).2
      rw [abs_of_nonpos (by linarith), abs_of_nonpos (by linarith)]
      linarith

theorem roundQ_mono {p q : ℚ} (h : p ≤ q) : roundQ p ≤ roundQ q := by
  rcases h.eq_or_lt with he | h
  · rw [he]
  by_contra hc
  have hc := not_le.mp hc
  have h1 := roundQ_nearest p (roundQ_repr q)
  have h2 := roundQ_nearest q (roundQ_repr p)
  generalize roundQ p = a at *
  generalize roundQ q = b at *
  have hp : a + b ≤ 2 * p := by
    by_contra hx
    have hx := not_le.mp hx
    have h3 : b - p ≤ |b - p| := le_abs_self _
    rcases le_total p b with c | c
    · rw [abs_of_nonneg (by linarith), abs_of_nonneg (by linarith)] at h1
      linarith
    · rw [abs_of_nonpos (show b - p ≤ 0 by linarith)] at h1
      have := le_abs_self (a - p)
      linarith
  have hq : 2 * q ≤ a + b := by
    by_contra hx
    have hx := not_le.mp hx
    rcases le_total q a with c | c
    · rw [abs_of_nonneg (show 0 ≤ a - q by linarith)] at h2
      have := neg_abs_le (b - q)
      linarith
    · rw [abs_of_nonpos (show a - q ≤ 0 by linarith), abs_of_nonpos (show b - q ≤ 0 by linarith)] at h2
      linarith
  linarith

/-! ### Results of operations -/

theorem repr_two_pow (k : ℤ) (h : -126 ≤ k) : Representable ((2 : ℚ) ^ k) :=
  ⟨1, k, by norm_num, by omega, by simp⟩

theorem repr_neg {q : ℚ} (h : Representable q) : Representable (-q) := by
  obtain ⟨m, k, hm, hk, hq⟩ := h
  exact ⟨-m, k, by rwa [abs_neg], hk, by rw [hq]; push_cast; ring⟩

/-- An integer of 24 bits, divided by a power of two. -/
theorem repr_int_div (m : ℤ) (n : ℕ) (hm : |m| ≤ 2 ^ 24) (hn : n ≤ 149) :
    Representable ((m : ℚ) / 2 ^ n) :=
  ⟨m, -n, hm, by omega, by rw [zpow_neg, zpow_natCast, div_eq_mul_inv]⟩

theorem repr_int (m : ℤ) (hm : |m| ≤ 2 ^ 24) : Representable (m : ℚ) :=
  ⟨m, 0, hm, by omega, by simp⟩

theorem repr_nat (m : ℕ) (hm : m ≤ 2 ^ 24) : Representable (m : ℚ) := by
  have := repr_int (m : ℤ) (by rw [Nat.abs_cast]; exact_mod_cast hm)
  exact_mod_cast this

theorem roundQ_abs_le {q : ℚ} {k : ℤ} (hk : -126 ≤ k) (h : |q| ≤ (2 : ℚ) ^ k) :
    |roundQ q| ≤ (2 : ℚ) ^ k := by
  rw [abs_le] at *
  constructor
  · have := roundQ_mono h.1
    rwa [roundQ_of_repr (repr_neg (repr_two_pow k hk))] at this
  · have := roundQ_mono h.2
    rwa [roundQ_of_repr (repr_two_pow k hk)] at this

/-- No overflow below `2 ^ 127`. -/
theorem round_eq {q : ℚ} (h : |q| ≤ (2 : ℚ) ^ (127 : ℤ)) : round q = fin (roundQ q) := by
  unfold round
  simp only [pow2_eq, ratAbs_eq]
  rw [if_neg]
  have := roundQ_abs_le (by norm_num) h
  have h2 : (2 : ℚ) ^ (127 : ℤ) < (2 : ℚ) ^ (128 : ℤ) := by norm_num
  linarith

theorem round_of_repr {q : ℚ} (h : Representable q) (hb : |q| ≤ (2 : ℚ) ^ (127 : ℤ)) : round q = fin q := by
  rw [round_eq hb, roundQ_of_repr h]

theorem roundQ_nonneg {q : ℚ} (h : 0 ≤ q) : 0 ≤ roundQ q := by
  have := roundQ_mono h
  rwa [roundQ_zero] at this

theorem roundQ_nonpos {q : ℚ} (h : q ≤ 0) : roundQ q ≤ 0 := by
  have := roundQ_mono h
  rwa [roundQ_zero] at this

/-! ### Conversion to integers -/

theorem truncQ_of_nonneg {q : ℚ} (h : 0 ≤ q) : truncQ q = ⌊q⌋ := by
  rw [truncQ, if_neg (not_lt.mpr h)]; rfl

theorem truncQ_of_nonpos {q : ℚ} (h : q ≤ 0) : truncQ q = ⌈q⌉ := by
  rcases h.eq_or_lt with e | h
  · rw [e, truncQ_of_nonneg le_rfl]; simp
  · rw [truncQ, if_pos h]
    have : (-q).floor = ⌊-q⌋ := rfl
    rw [this, Int.floor_neg, neg_neg]

theorem truncQ_mono {p q : ℚ} (h : p ≤ q) : truncQ p ≤ truncQ q := by
  rcases le_total 0 p with hp | hp
  · rw [truncQ_of_nonneg hp, truncQ_of_nonneg (hp.trans h)]
    exact Int.floor_mono h
  · rcases le_total 0 q with hq | hq
    · rw [truncQ_of_nonpos hp, truncQ_of_nonneg hq]
      exact (Int.ceil_le.mpr (by simpa using hp)).trans (Int.floor_nonneg.mpr hq)
    · rw [truncQ_of_nonpos hp, truncQ_of_nonpos hq]
      exact Int.ceil_mono h

theorem truncQ_int (n : ℤ) : truncQ (n : ℚ) = n := by
  rcases le_total 0 n with h | h
  · rw [truncQ_of_nonneg (by exact_mod_cast h), Int.floor_intCast]
  · rw [truncQ_of_nonpos (by exact_mod_cast h), Int.ceil_intCast]

/-- Truncating a number less than one away from an integer `x` gives `x` or the next integer
towards zero. -/
theorem truncQ_near (y : ℚ) (x : ℤ) (h : |y - x| < 1) :
    (0 < x → truncQ y = x ∨ truncQ y = x - 1) ∧ (x < 0 → truncQ y = x ∨ truncQ y = x + 1) ∧
      (x = 0 → truncQ y = 0) := by
  rw [abs_lt] at h
  obtain ⟨h1, h2⟩ := h
  refine ⟨?_, ?_, ?_⟩
  · intro hx
    have hx' : (1 : ℚ) ≤ x := by exact_mod_cast hx
    rw [truncQ_of_nonneg (by linarith)]
    have a : x - 1 ≤ ⌊y⌋ := Int.le_floor.mpr (by push_cast; linarith)
    have b : ⌊y⌋ < x + 1 := Int.floor_lt.mpr (by push_cast; linarith)
    omega
  · intro hx
    have hx' : (x : ℚ) ≤ -1 := by exact_mod_cast (show x ≤ -1 by omega)
    rw [truncQ_of_nonpos (by linarith)]
    have a : ⌈y⌉ ≤ x + 1 := Int.ceil_le.mpr (by push_cast; linarith)
    have b : x - 1 < ⌈y⌉ := Int.lt_ceil.mpr (by push_cast; linarith)
    omega
  · rintro rfl
    push_cast at h1 h2
    rcases le_total 0 y with hy | hy
    · rw [truncQ_of_nonneg hy]
      exact Int.floor_eq_zero_iff.mpr ⟨hy, by linarith⟩
    · rw [truncQ_of_nonpos hy]
      have a : ⌈y⌉ ≤ 0 := Int.ceil_le.mpr (by push_cast; linarith)
      have b : -1 < ⌈y⌉ := Int.lt_ceil.mpr (by push_cast; linarith)
      omega

end F32

end Ur20
