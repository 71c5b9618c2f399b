import Mathlib.Data.Finset.Card
import Mathlib.Order.Interval.Finset.Nat
import Verif.Lemmas.SettleSpec

/-!
# Counting the registers that are not fixed
-/

namespace Ur20
namespace Settle

open F32 Spec

/-! ### The checks are exact -/

theorem rf_ge {n d : Nat} (k : Nat) (h : 2 ^ (k + 23) ≤ n / d) :
    2 ^ (k + 23) ≤ rf n d := by
  have h0 : n / d ≠ 0 := by
    intro e; rw [e] at h; simp at h
  have hL : k + 23 ≤ Nat.log2 (n / d) := (Nat.le_log2 h0).2 h
  have l1 := Nat.log2_self_le h0
  obtain ⟨j, hj⟩ : ∃ j, Nat.log2 (n / d) = j + 23 := ⟨Nat.log2 (n / d) - 23, by omega⟩
  rw [rf_eq, hj, Nat.add_sub_cancel]
  rw [hj] at l1 hL
  have hq : 2 ^ 23 ≤ n / (d * 2 ^ j) := by
    rw [← Nat.div_div_eq_div_mul, Nat.le_div_iff_mul_le (by positivity), ← pow_add, add_comm]
    exact l1
  have hn : ∀ r D q, q ≤ near r D q := by
    intro r D q; rw [near_eq]; split_ifs <;> omega
  calc 2 ^ (k + 23) ≤ 2 ^ (j + 23) := Nat.pow_le_pow_right (by norm_num) hL
    _ = 2 ^ 23 * 2 ^ j := by rw [pow_add, mul_comm]
    _ ≤ _ := Nat.mul_le_mul_right _ (hq.trans (hn _ _ _))

theorem fixZ_exact (t n : Nat) (ht : t ≤ 2) (hn : 1 ≤ n)
    (h : (n : ℚ) ≤ encodedQ (0, 20 / 2 ^ t) .S7 (decodedQ (0, 20 / 2 ^ t) .S7 n)) :
    fixZ n = true := by
  have ht0 : (0 : ℚ) < 2 ^ t := by positivity
  apply Nat.ble_eq_true_of_le
  change n * 1099511627776 ≤ rf (rf (27648 * rf (n * 21990232555520) 27648) 1) 20
  have g0 : 2 ^ (6 + 23) ≤ n * 21990232555520 / 27648 := by
    rw [Nat.le_div_iff_mul_le (by norm_num)]
    exact le_trans (by norm_num) (Nat.mul_le_mul_right _ hn)
  have g1 : 2 ^ 23 ≤ n * 21990232555520 / 27648 := le_trans (by norm_num) g0
  have gD := rf_ge 6 g0
  have g2 : 2 ^ 23 ≤ rf (27648 * rf (n * 21990232555520) 27648) 1 / 20 := by
    have : 2 ^ (20 + 23) ≤ rf (27648 * rf (n * 21990232555520) 27648) 1 := by
      apply rf_ge
      rw [Nat.div_one]
      exact le_trans (by norm_num) (Nat.mul_le_mul_left 27648 gD)
    rw [Nat.le_div_iff_mul_le (by norm_num)]
    exact le_trans (by norm_num) this
  have e1 : decodedQ (0, 20 / 2 ^ t) .S7 n =
      (rf (n * 21990232555520) 27648 : ℕ) / 2 ^ (40 + t) := by
    rw [← roundQ_nat _ _ _ (by norm_num) (by omega) (Or.inl g1)]
    unfold decodedQ
    rw [add_zero, roundQ_roundQ]
    congr 1
    rw [two_pow_cast]
    simp only [fullScale]
    push_cast
    field_simp
    ring
  rw [e1] at h
  generalize hD : rf (n * 21990232555520) 27648 = D at *
  have e2 : roundQ ((D : ℚ) / 2 ^ (40 + t) - 0) = (D : ℚ) / 2 ^ (40 + t) := by
    rw [sub_zero, ← e1]
    exact roundQ_of_repr (roundQ_repr _)
  unfold encodedQ at h
  simp only [e2] at h
  have e3 : roundQ (fullScale .S7 * ((D : ℚ) / 2 ^ (40 + t))) =
      (rf (27648 * D) 1 : ℕ) / 2 ^ (40 + t) := by
    rw [← roundQ_unit _ _ (by omega)]
    congr 1
    simp only [fullScale]
    push_cast
    ring
  rw [e3] at h
  generalize rf (27648 * D) 1 = E at *
  have e4 : roundQ ((E : ℚ) / 2 ^ (40 + t) / (20 / 2 ^ t - 0)) = (rf E 20 : ℕ) / 2 ^ 40 := by
    rw [← roundQ_nat E 20 40 (by norm_num) (by norm_num) (Or.inl g2)]
    congr 1
    rw [two_pow_cast]
    push_cast
    field_simp
    ring
  rw [e4, le_div_iff₀ (by positivity)] at h
  exact_mod_cast h

theorem encoded_exact {t n X : Nat}
    (h : (n : ℚ) ≤ roundQ (((rf X 1 : ℕ) : ℚ) / 2 ^ (40 + t) / (20 / 2 ^ t - 4 / 2 ^ t))) :
    n * 17592186044416 ≤ rf X 1 := by
  have e : ((rf X 1 : ℕ) : ℚ) / 2 ^ (40 + t) / (20 / 2 ^ t - 4 / 2 ^ t) =
      ((rf X 1 : ℕ) : ℚ) / 2 ^ 44 := by
    rw [two_pow_cast]
    have : (0 : ℚ) < 2 ^ t := by positivity
    field_simp
    ring
  rw [e, ← roundQ_unit _ _ (by norm_num), roundQ_roundQ, roundQ_unit _ _ (by norm_num),
    le_div_iff₀ (by norm_num)] at h
  exact_mod_cast h

theorem fixP_exact (t n : Nat) (ht : t ≤ 2) (hn : 1 ≤ n)
    (h : (n : ℚ) ≤ encodedQ (4 / 2 ^ t, 20 / 2 ^ t) .S7 (decodedQ (4 / 2 ^ t, 20 / 2 ^ t) .S7 n)) :
    fixP n = true := by
  apply Nat.ble_eq_true_of_le
  change n * 17592186044416 ≤ rf (27648 * rf (rf (rf (n * 17592186044416) 27648 + 4398046511104) 1 -
    4398046511104) 1) 1
  have hS : (0 : ℚ) < 2 ^ (40 + t) := by positivity
  have e1 := scaled_eq t n ht hn
  generalize rf (n * 17592186044416) 27648 = A at *
  have e2 : decodedQ (4 / 2 ^ t, 20 / 2 ^ t) .S7 n =
      (rf (A + 4398046511104) 1 : ℕ) / 2 ^ (40 + t) := by
    rw [← roundQ_unit _ _ (by omega)]
    unfold decodedQ
    simp only
    rw [Int.cast_natCast, e1, offset_eq, ← add_div]
    push_cast
    rfl
  have e3 : 4398046511104 ≤ rf (A + 4398046511104) 1 := by
    have : (4 : ℚ) / 2 ^ t ≤ (rf (A + 4398046511104) 1 : ℕ) / 2 ^ (40 + t) := by
      rw [← roundQ_unit _ _ (by omega), ← roundQ_of_repr (repr_offset t ht)]
      apply roundQ_mono
      rw [offset_eq, div_le_div_iff_of_pos_right hS]
      rw [Nat.cast_add, Nat.cast_ofNat]
      exact le_add_of_nonneg_left (Nat.cast_nonneg A)
    rw [offset_eq, div_le_div_iff_of_pos_right hS] at this
    exact_mod_cast this
  rw [e2] at h
  generalize rf (A + 4398046511104) 1 = V at *
  obtain ⟨B, rfl⟩ : ∃ B, V = 4398046511104 + B := ⟨V - 4398046511104, by omega⟩
  rw [Nat.add_sub_cancel_left]
  unfold encodedQ at h
  simp only at h
  have e4 : ((4398046511104 + B : ℕ) : ℚ) / 2 ^ (40 + t) - 4 / 2 ^ t = (B : ℚ) / 2 ^ (40 + t) := by
    rw [offset_eq, ← sub_div]
    push_cast
    congr 1
    ring
  have e5 : fullScale .S7 * ((rf B 1 : ℕ) / 2 ^ (40 + t) : ℚ) =
      ((27648 * rf B 1 : ℕ) : ℚ) / 2 ^ (40 + t) := by
    simp only [fullScale]; push_cast; ring
  rw [e4, roundQ_unit _ _ (by omega), e5, roundQ_unit _ _ (by omega)] at h
  exact encoded_exact h

theorem fixN_exact (t n : Nat) (ht : t ≤ 2) (hn : 1 ≤ n)
    (h : encodedQ (4 / 2 ^ t, 20 / 2 ^ t) .S7 (decodedQ (4 / 2 ^ t, 20 / 2 ^ t) .S7 (-n)) ≤
      -(n : ℚ)) : fixN n = true := by
  apply Nat.ble_eq_true_of_le
  rw [force_eq]
  change n * 17592186044416 ≤ rf (27648 * rf (below (rf (n * 17592186044416) 27648)) 1) 1
  have e1 := scaled_eq t n ht hn
  generalize rf (n * 17592186044416) 27648 = A at *
  have e2 : decodedQ (4 / 2 ^ t, 20 / 2 ^ t) .S7 (-n) - 4 / 2 ^ t =
      -((below A : ℕ) / 2 ^ (40 + t) : ℚ) := by
    rw [← below_spec t A ht]
    unfold decodedQ
    simp only
    rw [← e1, ← roundQ_neg]
    push_cast
    rw [neg_mul, neg_div]
  unfold encodedQ at h
  simp only at h
  generalize below A = B at *
  have e5 : fullScale .S7 * -((rf B 1 : ℕ) / 2 ^ (40 + t) : ℚ) =
      -(((27648 * rf B 1 : ℕ) : ℚ) / 2 ^ (40 + t)) := by
    simp only [fullScale]; push_cast; ring
  rw [e2, roundQ_neg, roundQ_unit _ _ (by omega), e5, roundQ_neg, roundQ_unit _ _ (by omega),
    neg_div, roundQ_neg, neg_le_neg_iff] at h
  exact encoded_exact h

/-! ### Counting -/

/-- `c` plus the number of `n` with `f ≤ n < f + 2 ^ k` that do not pass the check. -/
noncomputable def tally (fix : Nat → Bool) : Nat → Nat → Nat → Nat
  | 0, f, c => Bool.rec (Nat.succ c) c (fix f)
  | k + 1, f, c => force (tally fix k f c) fun c' =>
      force (Nat.add f (Nat.pow 2 k)) fun f' => tally fix k f' c'

theorem tally_spec (fix : Nat → Bool) (k f c : Nat) :
    tally fix k f c = c + ((Finset.Ico f (f + 2 ^ k)).filter fun n => fix n = false).card := by
  induction k generalizing f c with
  | zero =>
    rw [tally, pow_zero, Nat.Ico_succ_singleton, Finset.filter_singleton]
    cases fix f <;> simp
  | succ k ih =>
    rw [tally, force_eq, force_eq, ih, show Nat.add f (Nat.pow 2 k) = f + 2 ^ k from rfl, ih,
      add_assoc, ← Finset.card_union_of_disjoint, ← Finset.filter_union,
      Finset.Ico_union_Ico_eq_Ico (Nat.le_add_right _ _) (Nat.le_add_right _ _), pow_succ]
    · congr 4; omega
    · apply Finset.disjoint_filter_filter
      exact Finset.Ico_disjoint_Ico_consecutive _ _ _

theorem tally_step (fix : Nat → Bool) (k a c d : Nat) (h : Nat.beq (tally fix k a c) d = true)
    (hc : ((Finset.Ico 0 a).filter fun n => fix n = false).card = c) :
    ((Finset.Ico 0 (a + 2 ^ k)).filter fun n => fix n = false).card = d := by
  rw [← Nat.eq_of_beq_eq_true h, tally_spec, ← hc, ← Finset.card_union_of_disjoint,
    ← Finset.filter_union, Finset.Ico_union_Ico_eq_Ico (Nat.zero_le _) (Nat.le_add_right _ _)]
  apply Finset.disjoint_filter_filter
  exact Finset.Ico_disjoint_Ico_consecutive _ _ _

end Settle
end Ur20
