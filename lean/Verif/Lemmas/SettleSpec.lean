import Verif.Lemmas.SettleZero
import Verif.Lemmas.SettlePos
import Verif.Lemmas.SettleNeg

/-!
# What the checks of the fixed points mean
-/

namespace Ur20
namespace Settle

open F32 Spec

/-! ### Rounding is symmetric -/

theorem roundEven_neg (x : ℚ) : roundEven (-x) = -roundEven x := by
  have h1 : ((x.floor : ℤ) : ℚ) ≤ x := Rat.floor_le x
  have h2 : x < (x.floor : ℚ) + 1 := by exact_mod_cast Rat.lt_floor_add_one x
  by_cases h0 : x = (x.floor : ℚ)
  · rw [h0, ← Int.cast_neg, roundEven_int, roundEven_int]
  · have h3 : (x.floor : ℚ) < x := lt_of_le_of_ne h1 (Ne.symm h0)
    have hf : (-x).floor = -x.floor - 1 := by
      apply floor_unique <;> push_cast <;> linarith
    unfold roundEven
    simp only [hf]
    push_cast
    generalize hg : x.floor = f at *
    split_ifs <;> first | omega | (exfalso; linarith)

theorem ilog2_neg (q : ℚ) (h : q ≠ 0) : ilog2 (-q) = ilog2 q := by
  obtain ⟨a, b⟩ := ilog2_le q h
  exact ilog2_unique (neg_ne_zero.2 h) (by rwa [abs_neg]) (by rwa [abs_neg])

theorem roundQ_neg (q : ℚ) : roundQ (-q) = -roundQ q := by
  by_cases h : q = 0
  · rw [h, neg_zero, roundQ_zero, neg_zero]
  · have e : ulpExp (-q) = ulpExp q := by unfold ulpExp; rw [ilog2_neg q h]
    rw [roundQ_eq _ (neg_ne_zero.2 h), roundQ_eq _ h, e, neg_mul, roundEven_neg]
    push_cast
    ring

theorem roundQ_roundQ (q : ℚ) : roundQ (roundQ q) = roundQ q := roundQ_of_repr (roundQ_repr q)

/-! ### The checks -/

theorem near_le (r d q : Nat) : near r d q ≤ q + 1 := by
  rw [near_eq]
  split_ifs <;> omega

theorem rf_large {n d : Nat} (h : 2 ^ 24 ≤ rf n d) : 2 ^ 23 ≤ n / d := by
  by_contra hlt
  have hL : Nat.log2 (n / d) - 23 = 0 := by
    by_cases h0 : n / d = 0
    · rw [h0]; simp
    · have : Nat.log2 (n / d) < 23 := (Nat.log2_lt h0).2 (by omega)
      omega
  rw [rf_eq, hL, pow_zero, mul_one, mul_one] at h
  have := near_le (2 * (n % d)) d (n / d)
  omega

/-- Rounding an integer multiple of the unit. -/
theorem roundQ_unit (n s : Nat) (hs : s ≤ 100) : roundQ ((n : ℚ) / 2 ^ s) = (rf n 1 : ℕ) / 2 ^ s := by
  have := roundQ_nat n 1 s (by norm_num) hs (Or.inr rfl)
  rwa [Nat.cast_one, div_one] at this

theorem two_pow_cast (t : Nat) : (2 : ℚ) ^ (40 + t) = 1099511627776 * 2 ^ t := by
  rw [pow_add]; norm_num

theorem fixZ_spec (t n : Nat) (ht : t ≤ 2) (hn : 1 ≤ n) (h : fixZ n = true) :
    (n : ℚ) ≤ encodedQ (0, 20 / 2 ^ t) .S7 (decodedQ (0, 20 / 2 ^ t) .S7 n) := by
  have ht0 : (0 : ℚ) < 2 ^ t := by positivity
  have h := Nat.le_of_ble_eq_true h
  change n * 1099511627776 ≤ rf (rf (27648 * rf (n * 21990232555520) 27648) 1) 20 at h
  have g1 : 2 ^ 23 ≤ n * 21990232555520 / 27648 := by
    rw [Nat.le_div_iff_mul_le (by norm_num)]
    exact le_trans (by norm_num) (Nat.mul_le_mul_right _ hn)
  have g2 : 2 ^ 23 ≤ rf (27648 * rf (n * 21990232555520) 27648) 1 / 20 := 
    rf_large (le_trans (by norm_num) ((Nat.mul_le_mul_right _ hn).trans h))
  have e1 : decodedQ (0, 20 / 2 ^ t) .S7 n =
      (rf (n * 21990232555520) 27648 : ℕ) / 2 ^ (40 + t) := by
    rw [← roundQ_nat _ _ _ (by norm_num) (by omega) (Or.inl g1)]
    unfold decodedQ
    rw [add_zero, roundQ_roundQ]
    congr 1
    rw [two_pow_cast]
    simp only [fullScale]
    push_cast
    field_simp
    ring
  rw [e1]
  generalize hD : rf (n * 21990232555520) 27648 = D at *
  have e2 : roundQ ((D : ℚ) / 2 ^ (40 + t) - 0) = (D : ℚ) / 2 ^ (40 + t) := by
    rw [sub_zero, ← e1]
    exact roundQ_of_repr (roundQ_repr _)
  unfold encodedQ
  simp only [e2]
  have e3 : roundQ (fullScale .S7 * ((D : ℚ) / 2 ^ (40 + t))) =
      (rf (27648 * D) 1 : ℕ) / 2 ^ (40 + t) := by
    rw [← roundQ_unit _ _ (by omega)]
    congr 1
    simp only [fullScale]
    push_cast
    ring
  rw [e3]
  generalize rf (27648 * D) 1 = E at *
  have e4 : roundQ ((E : ℚ) / 2 ^ (40 + t) / (20 / 2 ^ t - 0)) = (rf E 20 : ℕ) / 2 ^ 40 := by
    rw [← roundQ_nat E 20 40 (by norm_num) (by norm_num) (Or.inl g2)]
    congr 1
    rw [two_pow_cast]
    push_cast
    field_simp
    ring
  rw [e4, le_div_iff₀ (by positivity)]
  exact_mod_cast h

theorem encoded_ge {t n E : Nat} (hn : n ≤ 32768) (h : n * 17592186044416 ≤ E) :
    (n : ℚ) ≤ roundQ ((E : ℚ) / 2 ^ (40 + t) / (20 / 2 ^ t - 4 / 2 ^ t)) := by
  have e : (E : ℚ) / 2 ^ (40 + t) / (20 / 2 ^ t - 4 / 2 ^ t) = (E : ℚ) / 17592186044416 := by
    rw [two_pow_cast]
    have : (0 : ℚ) < 2 ^ t := by positivity
    field_simp
    ring
  have r : Representable (n : ℚ) := by
    have := repr_int (n : ℤ) (by rw [Nat.abs_cast]; exact_mod_cast (by omega : n ≤ 2 ^ 24))
    exact_mod_cast this
  rw [e, ← roundQ_of_repr r]
  apply roundQ_mono
  rw [le_div_iff₀ (by norm_num)]
  exact_mod_cast h

theorem repr_offset (t : Nat) (ht : t ≤ 2) : Representable ((4 : ℚ) / 2 ^ t) := by
  refine ⟨4, -(t : ℤ), by norm_num, by omega, ?_⟩
  rw [zpow_neg, zpow_natCast]
  push_cast
  rw [div_eq_mul_inv]

theorem offset_eq (t : Nat) : (4 : ℚ) / 2 ^ t = 4398046511104 / 2 ^ (40 + t) := by
  rw [two_pow_cast]
  have : (0 : ℚ) < 2 ^ t := by positivity
  field_simp
  norm_num

/-- The scaled register of a range from an offset. -/
theorem scaled_eq (t n : Nat) (ht : t ≤ 2) (hn : 1 ≤ n) :
    roundQ ((n : ℚ) * (20 / 2 ^ t - 4 / 2 ^ t) / fullScale .S7) =
      (rf (n * 17592186044416) 27648 : ℕ) / 2 ^ (40 + t) := by
  have g1 : 2 ^ 23 ≤ n * 17592186044416 / 27648 := by
    rw [Nat.le_div_iff_mul_le (by norm_num)]
    exact le_trans (by norm_num) (Nat.mul_le_mul_right _ hn)
  rw [← roundQ_nat _ _ _ (by norm_num) (by omega) (Or.inl g1)]
  congr 1
  rw [two_pow_cast]
  have : (0 : ℚ) < 2 ^ t := by positivity
  simp only [fullScale]
  push_cast
  field_simp
  ring

theorem fixP_spec (t n : Nat) (ht : t ≤ 2) (hn : 1 ≤ n) (hn' : n ≤ 32768) (h : fixP n = true) :
    (n : ℚ) ≤ encodedQ (4 / 2 ^ t, 20 / 2 ^ t) .S7 (decodedQ (4 / 2 ^ t, 20 / 2 ^ t) .S7 n) := by
  have h := Nat.le_of_ble_eq_true h
  change n * 17592186044416 ≤ rf (27648 * rf (rf (rf (n * 17592186044416) 27648 + 4398046511104) 1 -
    4398046511104) 1) 1 at h
  have hS : (0 : ℚ) < 2 ^ (40 + t) := by positivity
  have e1 := scaled_eq t n ht hn
  generalize rf (n * 17592186044416) 27648 = A at *
  have e2 : decodedQ (4 / 2 ^ t, 20 / 2 ^ t) .S7 n =
      (rf (A + 4398046511104) 1 : ℕ) / 2 ^ (40 + t) := by
    rw [← roundQ_unit _ _ (by omega)]
    unfold decodedQ
    simp only
    rw [Int.cast_natCast, e1, offset_eq, ← add_div]
    push_cast
    rfl
  have e3 : 4398046511104 ≤ rf (A + 4398046511104) 1 := by
    have : (4 : ℚ) / 2 ^ t ≤ (rf (A + 4398046511104) 1 : ℕ) / 2 ^ (40 + t) := by
      rw [← roundQ_unit _ _ (by omega), ← roundQ_of_repr (repr_offset t ht)]
      apply roundQ_mono
      rw [offset_eq, div_le_div_iff_of_pos_right hS]
      rw [Nat.cast_add, Nat.cast_ofNat]
      exact le_add_of_nonneg_left (Nat.cast_nonneg A)
    rw [offset_eq, div_le_div_iff_of_pos_right hS] at this
    exact_mod_cast this
  rw [e2]
  generalize rf (A + 4398046511104) 1 = V at *
  obtain ⟨B, rfl⟩ : ∃ B, V = 4398046511104 + B := ⟨V - 4398046511104, by omega⟩
  rw [Nat.add_sub_cancel_left] at h
  unfold encodedQ
  simp only
  have e4 : ((4398046511104 + B : ℕ) : ℚ) / 2 ^ (40 + t) - 4 / 2 ^ t = (B : ℚ) / 2 ^ (40 + t) := by
    rw [offset_eq, ← sub_div]
    push_cast
    congr 1
    ring
  have e5 : fullScale .S7 * ((rf B 1 : ℕ) / 2 ^ (40 + t) : ℚ) =
      ((27648 * rf B 1 : ℕ) : ℚ) / 2 ^ (40 + t) := by
    simp only [fullScale]; push_cast; ring
  rw [e4, roundQ_unit _ _ (by omega), e5, roundQ_unit _ _ (by omega)]
  exact encoded_ge hn' h

theorem below_eq (a : Nat) : below a = if a ≤ 4398046511104 then
    4398046511104 - rf (4398046511104 - a) 1 else 4398046511104 + rf (a - 4398046511104) 1 := by
  unfold below
  by_cases h : a ≤ 4398046511104
  · rw [if_pos h, Nat.ble_eq_true_of_le h]; rfl
  · rw [if_neg h, show Nat.ble a 4398046511104 = false by
      rw [Bool.eq_false_iff]; intro e; exact h (Nat.le_of_ble_eq_true e)]
    rfl

theorem below_spec (t A : Nat) (ht : t ≤ 2) :
    roundQ (-((A : ℚ) / 2 ^ (40 + t)) + 4 / 2 ^ t) - 4 / 2 ^ t =
      -((below A : ℕ) / 2 ^ (40 + t) : ℚ) := by
  have hS : (0 : ℚ) < 2 ^ (40 + t) := by positivity
  rw [below_eq]
  split_ifs with h
  · obtain ⟨C, hC⟩ : ∃ C, 4398046511104 = A + C := ⟨4398046511104 - A, by omega⟩
    have e1 : -((A : ℚ) / 2 ^ (40 + t)) + 4 / 2 ^ t = (C : ℚ) / 2 ^ (40 + t) := by
      rw [offset_eq, show (4398046511104 : ℚ) = A + C by exact_mod_cast hC]; ring
    have e2 : rf C 1 ≤ 4398046511104 := by
      have : ((rf C 1 : ℕ) : ℚ) / 2 ^ (40 + t) ≤ 4 / 2 ^ t := by
        rw [← roundQ_unit _ _ (by omega), ← roundQ_of_repr (repr_offset t ht)]
        apply roundQ_mono
        rw [offset_eq, div_le_div_iff_of_pos_right hS]
        exact_mod_cast (by omega : C ≤ 4398046511104)
      rw [offset_eq, div_le_div_iff_of_pos_right hS] at this
      exact_mod_cast this
    rw [e1, roundQ_unit _ _ (by omega), show 4398046511104 - A = C by omega, Nat.cast_sub e2,
      offset_eq]
    push_cast
    ring
  · obtain ⟨C, rfl⟩ : ∃ C, A = 4398046511104 + C := ⟨A - 4398046511104, by omega⟩
    have e1 : -(((4398046511104 + C : ℕ) : ℚ) / 2 ^ (40 + t)) + 4 / 2 ^ t =
        -((C : ℚ) / 2 ^ (40 + t)) := by
      rw [offset_eq]; push_cast; ring
    rw [e1, roundQ_neg, roundQ_unit _ _ (by omega), Nat.add_sub_cancel_left, offset_eq]
    push_cast
    ring

theorem fixN_spec (t n : Nat) (ht : t ≤ 2) (hn : 1 ≤ n) (hn' : n ≤ 32768) (h : fixN n = true) :
    encodedQ (4 / 2 ^ t, 20 / 2 ^ t) .S7 (decodedQ (4 / 2 ^ t, 20 / 2 ^ t) .S7 (-n)) ≤ -(n : ℚ) := by
  have h := Nat.le_of_ble_eq_true h
  rw [force_eq] at h
  change n * 17592186044416 ≤ rf (27648 * rf (below (rf (n * 17592186044416) 27648)) 1) 1 at h
  have e1 := scaled_eq t n ht hn
  generalize rf (n * 17592186044416) 27648 = A at *
  have e2 : decodedQ (4 / 2 ^ t, 20 / 2 ^ t) .S7 (-n) - 4 / 2 ^ t =
      -((below A : ℕ) / 2 ^ (40 + t) : ℚ) := by
    rw [← below_spec t A ht]
    unfold decodedQ
    simp only
    rw [← e1, ← roundQ_neg]
    push_cast
    rw [neg_mul, neg_div]
  unfold encodedQ
  simp only
  generalize below A = B at *
  have e5 : fullScale .S7 * -((rf B 1 : ℕ) / 2 ^ (40 + t) : ℚ) =
      -(((27648 * rf B 1 : ℕ) : ℚ) / 2 ^ (40 + t)) := by
    simp only [fullScale]; push_cast; ring
  rw [e2, roundQ_neg, roundQ_unit _ _ (by omega), e5, roundQ_neg, roundQ_unit _ _ (by omega),
    neg_div, roundQ_neg, neg_le_neg_iff]
  exact encoded_ge hn' h

end Settle
end Ur20
