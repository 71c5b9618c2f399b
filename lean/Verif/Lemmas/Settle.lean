import Verif.Lemmas.Analog

/-!
# Rounding with natural numbers

A number `n / d / 2 ^ s` is rounded by integer operations.  The kernel evaluates these quickly, so
that a statement about all registers can be decided.  `rf` is proved to be `roundQ`.
-/

namespace Ur20
namespace Settle

open F32

/-- `k n`, with `n` evaluated first. -/
noncomputable def force (n : Nat) (k : Nat → Nat) : Nat :=
  Nat.rec (k 0) (fun m _ => k (Nat.succ m)) n

theorem force_eq (n : Nat) (k : Nat → Nat) : force n k = k n := by
  cases n <;> rfl

/-- Nearest integer of `q + r / (2 * d)`, ties to even. -/
noncomputable def near (r d q : Nat) : Nat :=
  Bool.rec (Bool.rec (Nat.add q (Nat.mod q 2)) (Nat.succ q) (Nat.ble (Nat.succ d) r)) q
    (Nat.ble (Nat.succ r) d)

theorem near_eq (r d q : Nat) :
    near r d q = if r < d then q else if d < r then q + 1 else q + q % 2 := by
  unfold near
  by_cases h : r < d
  · rw [if_pos h, show Nat.ble (Nat.succ r) d = true from Nat.ble_eq_true_of_le h]
  · rw [if_neg h, show Nat.ble (Nat.succ r) d = false by
      rw [Bool.eq_false_iff]; intro e; exact h (Nat.le_of_ble_eq_true e)]
    by_cases h' : d < r
    · rw [if_pos h', show Nat.ble (Nat.succ d) r = true from Nat.ble_eq_true_of_le h']
    · rw [if_neg h', show Nat.ble (Nat.succ d) r = false by
        rw [Bool.eq_false_iff]; intro e; exact h' (Nat.le_of_ble_eq_true e)]
      rfl

/-- `n / d` rounded to 24 significant bits. -/
noncomputable def rf (n d : Nat) : Nat :=
  force n fun n => force (Nat.pow 2 (Nat.sub (Nat.log2 (Nat.div n d)) 23)) fun u =>
  force (Nat.mul d u) fun D => force (Nat.mul 2 (Nat.mod n D)) fun r =>
  force (Nat.div n D) fun q => Nat.mul (near r D q) u

theorem rf_eq (n d : Nat) :
    rf n d = near (2 * (n % (d * 2 ^ (Nat.log2 (n / d) - 23)))) (d * 2 ^ (Nat.log2 (n / d) - 23))
      (n / (d * 2 ^ (Nat.log2 (n / d) - 23))) * 2 ^ (Nat.log2 (n / d) - 23) := by
  simp only [rf, force_eq]
  rfl

theorem floor_unique {q : ℚ} {f : ℤ} (h1 : (f : ℚ) ≤ q) (h2 : q < f + 1) : q.floor = f := by
  have h3 : ((q.floor : ℤ) : ℚ) ≤ q := Rat.floor_le q
  have h4 : q < (q.floor : ℚ) + 1 := by exact_mod_cast Rat.lt_floor_add_one q
  have h5 : (f : ℚ) < ((q.floor + 1 : ℤ) : ℚ) := by push_cast; linarith
  have h6 : ((q.floor : ℤ) : ℚ) < ((f + 1 : ℤ) : ℚ) := by push_cast; linarith
  have h7 : f < q.floor + 1 := by exact_mod_cast h5
  have h8 : q.floor < f + 1 := by exact_mod_cast h6
  omega

theorem roundEven_nat (n d : Nat) (hd : 0 < d) :
    roundEven ((n : ℚ) / d) = (near (2 * (n % d)) d (n / d) : ℕ) := by
  have hd' : (0 : ℚ) < d := by exact_mod_cast hd
  have e : (n : ℚ) = d * ((n / d : ℕ) : ℚ) + ((n % d : ℕ) : ℚ) := by
    exact_mod_cast (Nat.div_add_mod n d).symm
  have hr : ((n % d : ℕ) : ℚ) < d := by exact_mod_cast Nat.mod_lt n hd
  have hr0 : (0 : ℚ) ≤ ((n % d : ℕ) : ℚ) := by positivity
  have e' : (n : ℚ) / d = ((n / d : ℕ) : ℚ) + ((n % d : ℕ) : ℚ) / d := by
    conv_lhs => rw [e]
    field_simp
  have f1 : ((n % d : ℕ) : ℚ) / d < 1 := by rw [div_lt_one hd']; exact hr
  have f0 : (0 : ℚ) ≤ ((n % d : ℕ) : ℚ) / d := div_nonneg hr0 hd'.le
  have hf : ((n : ℚ) / d).floor = ((n / d : ℕ) : ℤ) := by
    apply floor_unique
    · rw [e', Int.cast_natCast]; linarith
    · rw [e', Int.cast_natCast]; linarith
  have hfr : (n : ℚ) / d - (((n / d : ℕ) : ℤ) : ℚ) = ((n % d : ℕ) : ℚ) / d := by
    rw [e', Int.cast_natCast]; ring
  unfold roundEven
  simp only [hf, hfr]
  rw [near_eq]
  by_cases h1 : 2 * (n % d) < d
  · have h1' : (2 : ℚ) * ((n % d : ℕ) : ℚ) < d := by exact_mod_cast h1
    rw [if_pos (by rw [div_lt_iff₀ hd']; linarith), if_pos h1]
  · have h1' : (d : ℚ) ≤ 2 * ((n % d : ℕ) : ℚ) := by exact_mod_cast not_lt.1 h1
    rw [if_neg (by rw [div_lt_iff₀ hd']; linarith), if_neg h1]
    by_cases h2 : d < 2 * (n % d)
    · have h2' : (d : ℚ) < 2 * ((n % d : ℕ) : ℚ) := by exact_mod_cast h2
      rw [if_pos (by rw [lt_div_iff₀ hd']; linarith), if_pos h2]
      push_cast; rfl
    · have h2' : (2 : ℚ) * ((n % d : ℕ) : ℚ) ≤ d := by exact_mod_cast not_lt.1 h2
      rw [if_neg (by rw [lt_div_iff₀ hd']; linarith), if_neg h2]
      split_ifs with h3 <;> omega

theorem ilog2_unique {q : ℚ} (h : q ≠ 0) {e : ℤ} (h1 : (2 : ℚ) ^ e ≤ |q|)
    (h2 : |q| < (2 : ℚ) ^ (e + 1)) : ilog2 q = e := by
  obtain ⟨a, b⟩ := ilog2_le q h
  have c := lt_of_le_of_lt a h2
  have d := lt_of_le_of_lt h1 b
  rw [zpow_lt_zpow_iff_right₀ (by norm_num)] at c d
  omega

/-- Rounding with natural numbers is rounding. -/
theorem roundQ_nat (n d s : Nat) (hd : 0 < d) (hs : s ≤ 100) (h : 2 ^ 23 ≤ n / d ∨ d = 1) :
    roundQ ((n : ℚ) / d / 2 ^ s) = (rf n d : ℕ) / 2 ^ s := by
  have hd' : (0 : ℚ) < d := by exact_mod_cast hd
  have hs0 : (0 : ℚ) < 2 ^ s := by positivity
  by_cases hL : 23 ≤ Nat.log2 (n / d)
  · have hx : n / d ≠ 0 := by rintro h0; rw [h0] at hL; simp at hL
    have l1 := Nat.log2_self_le hx
    have l2 := @Nat.lt_log2_self (n / d)
    generalize hLe : Nat.log2 (n / d) = L at *
    obtain ⟨k, rfl⟩ : ∃ k, L = k + 23 := ⟨L - 23, by omega⟩
    have q1 : (2 : ℚ) ^ (k + 23) ≤ (n : ℚ) / d := by
      rw [le_div_iff₀ hd']
      have := (Nat.le_div_iff_mul_le hd).1 l1
      exact_mod_cast this
    have q2 : (n : ℚ) / d < 2 ^ (k + 23 + 1) := by
      rw [div_lt_iff₀ hd']
      have := (Nat.div_lt_iff_lt_mul hd).1 l2
      exact_mod_cast this
    have hq0 : (0 : ℚ) < (n : ℚ) / d := lt_of_lt_of_le (by positivity) q1
    have hq : (n : ℚ) / d / 2 ^ s ≠ 0 := (div_pos hq0 hs0).ne'
    have hi : ilog2 ((n : ℚ) / d / 2 ^ s) = (k : ℤ) + 23 - s := by
      apply ilog2_unique hq
      · rw [abs_of_pos (div_pos hq0 hs0), le_div_iff₀ hs0, ← zpow_natCast (2 : ℚ) s,
          ← zpow_add₀ (by norm_num)]
        refine le_trans (le_of_eq ?_) q1
        rw [← zpow_natCast]; congr 1; push_cast; ring
      · rw [abs_of_pos (div_pos hq0 hs0), div_lt_iff₀ hs0, ← zpow_natCast (2 : ℚ) s,
          ← zpow_add₀ (by norm_num)]
        refine lt_of_lt_of_eq q2 ?_
        rw [← zpow_natCast]; congr 1; push_cast; ring
    have hu : ulpExp ((n : ℚ) / d / 2 ^ s) = (k : ℤ) - s := by
      unfold ulpExp; rw [hi]; omega
    rw [roundQ_eq _ hq, hu, rf_eq, hLe, show k + 23 - 23 = k by omega]
    have e1 : (n : ℚ) / d / 2 ^ s * (2 : ℚ) ^ (-((k : ℤ) - s)) =
        (n : ℚ) / ((d * 2 ^ k : ℕ) : ℚ) := by
      rw [neg_sub, zpow_sub₀ (by norm_num), zpow_natCast, zpow_natCast]
      push_cast
      field_simp
    rw [e1, roundEven_nat _ _ (by positivity), zpow_sub₀ (by norm_num), zpow_natCast, zpow_natCast]
    push_cast
    ring
  · have hd1 : d = 1 := by
      rcases h with h | h
      · exfalso
        apply hL
        have : n / d ≠ 0 := by intro h0; rw [h0] at h; simp at h
        exact (Nat.le_log2 this).2 h
      · exact h
    subst hd1
    rw [Nat.div_one] at hL
    have hn : n < 2 ^ 23 := by
      by_cases h0 : n = 0
      · rw [h0]; norm_num
      · exact lt_of_lt_of_le (Nat.lt_log2_self) (Nat.pow_le_pow_right (by norm_num) (by omega))
    have e : rf n 1 = n := by
      rw [rf_eq, Nat.div_one, show Nat.log2 n - 23 = 0 by omega, near_eq]
      simp [Nat.mod_one]
    rw [e]
    push_cast
    rw [div_one]
    apply roundQ_of_repr
    refine ⟨n, -(s : ℤ), ?_, by omega, ?_⟩
    · rw [Nat.abs_cast]; exact_mod_cast (by omega : n ≤ 2 ^ 24)
    · rw [zpow_neg, zpow_natCast]; push_cast; rw [div_eq_mul_inv]

/-! ### Covering the registers by fixed points -/

/-- The largest of the numbers `f + 1` to `f + j` that passes the check, or `f`. -/
noncomputable def jump (fix : Nat → Bool) : Nat → Nat → Nat
  | 0, f => f
  | j + 1, f => force (Nat.add f (Nat.succ j)) fun g => Bool.rec (jump fix j f) g (fix g)

/-- `2 ^ k` jumps from `f`, but none from 32768 on. -/
noncomputable def cover (fix : Nat → Bool) (j : Nat) : Nat → Nat → Nat
  | 0, f => Bool.rec (jump fix j f) f (Nat.ble 32768 f)
  | k + 1, f => force (cover fix j k f) fun g => cover fix j k g

theorem jump_spec (fix : Nat → Bool) (j f : Nat) (h : fix f = true) :
    f ≤ jump fix j f ∧ jump fix j f ≤ f + j ∧ fix (jump fix j f) = true := by
  induction j with
  | zero => exact ⟨le_refl _, le_refl _, h⟩
  | succ j ih =>
    rw [jump, force_eq, show Nat.add f (Nat.succ j) = f + j + 1 from rfl]
    cases hf : fix (f + j + 1) with
    | true => exact ⟨by simp only; omega, by simp only; omega, hf⟩
    | false => exact ⟨ih.1, by have := ih.2.1; simp only; omega, ih.2.2⟩

theorem cover_spec (fix : Nat → Bool) (j k f : Nat) (h : fix f = true) :
    f ≤ cover fix (j + 1) k f ∧ fix (cover fix (j + 1) k f) = true ∧
      ∀ n, f ≤ n → n ≤ cover fix (j + 1) k f → ∃ p, p ≤ n ∧ n ≤ p + j ∧ fix p = true := by
  induction k generalizing f with
  | zero =>
    rw [cover]
    cases Nat.ble 32768 f with
    | true => exact ⟨le_refl _, h, fun n h1 h2 => ⟨f, h1, by simp only at h2; omega, h⟩⟩
    | false =>
      obtain ⟨a, b, c⟩ := jump_spec fix (j + 1) f h
      refine ⟨a, c, fun n h1 h2 => ?_⟩
      simp only at h2
      by_cases hn : n ≤ f + j
      · exact ⟨f, h1, hn, h⟩
      · exact ⟨n, le_refl _, by omega, by
          have : n = jump fix (j + 1) f := by omega
          rw [this]; exact c⟩
  | succ k ih =>
    rw [cover, force_eq]
    obtain ⟨a, b, c⟩ := ih f h
    obtain ⟨a', b', c'⟩ := ih _ b
    refine ⟨a.trans a', b', fun n h1 h2 => ?_⟩
    by_cases hn : n ≤ cover fix (j + 1) k f
    · exact c n h1 hn
    · exact c' n (by omega) h2

/-- The check for the ranges from zero, 20 units at the scale `2 ^ 40`. -/
noncomputable def fixZ (n : Nat) : Bool :=
  Nat.ble (Nat.mul n 1099511627776) (rf (rf (Nat.mul 27648
    (rf (Nat.mul n 21990232555520) 27648)) 1) 20)

/-- The check for the positive registers of the ranges from an offset, 4 to 20 units at the scale
`2 ^ 40`. -/
noncomputable def fixP (n : Nat) : Bool :=
  Nat.ble (Nat.mul n 17592186044416) (rf (Nat.mul 27648
    (rf (Nat.sub (rf (Nat.add (rf (Nat.mul n 17592186044416) 27648) 4398046511104) 1)
      4398046511104) 1)) 1)

/-- The distance from the offset, for a decoded value `a` below it. -/
noncomputable def below (a : Nat) : Nat :=
  Bool.rec (Nat.add 4398046511104 (rf (Nat.sub a 4398046511104) 1))
    (Nat.sub 4398046511104 (rf (Nat.sub 4398046511104 a) 1)) (Nat.ble a 4398046511104)

/-- The check for the negative registers of the ranges from an offset. -/
noncomputable def fixN (n : Nat) : Bool :=
  Nat.ble (Nat.mul n 17592186044416) (rf (Nat.mul 27648
    (rf (force (rf (Nat.mul n 17592186044416) 27648) below) 1)) 1)

end Settle
end Ur20
