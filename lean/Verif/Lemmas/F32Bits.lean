import Verif.Lemmas.Analog
import Verif.Model.F32Bits

/-! # Facts about bit patterns of `f32` -/

namespace Ur20

open F32

/-- The values an `f32` can have. -/
def F32.IsSingle : F32 → Prop
  | .fin q => Representable q ∧ |q| < 2 ^ 128
  | _ => True

theorem round_isSingle (q : ℚ) : (F32.round q).IsSingle := by
  unfold F32.round
  simp only
  split
  · trivial
  · rename_i h
    refine ⟨roundQ_repr q, ?_⟩
    rw [pow2_eq, ratAbs_eq, not_le] at h
    exact_mod_cast h

namespace FB

theorem make_toNat (neg : Bool) {e f : Nat} (he : e < 256) (hf : f < 2 ^ 23) :
    (make neg e f).bits.toNat = (if neg then 2 ^ 31 else 0) + e * 2 ^ 23 + f := by
  simp only [make, BitVec.toNat_ofNat]
  apply Nat.mod_eq_of_lt
  cases neg <;> simp <;> omega

theorem make_sign (neg : Bool) {e f : Nat} (he : e < 256) (hf : f < 2 ^ 23) :
    (make neg e f).sign = neg := by
  rw [sign, make_toNat neg he hf]
  cases neg <;> simp <;> omega

theorem make_expo (neg : Bool) {e f : Nat} (he : e < 256) (hf : f < 2 ^ 23) :
    (make neg e f).expo = e := by
  rw [expo, make_toNat neg he hf]
  cases neg <;> simp <;> omega

theorem make_frac (neg : Bool) {e f : Nat} (he : e < 256) (hf : f < 2 ^ 23) :
    (make neg e f).frac = f := by
  rw [frac, make_toNat neg he hf]
  cases neg <;> simp <;> omega

theorem expo_lt (x : FB) : x.expo < 256 := Nat.mod_lt _ (by decide)

theorem frac_lt (x : FB) : x.frac < 2 ^ 23 := Nat.mod_lt _ (by decide)

/-- A bit pattern is made of its fields. -/
theorem make_fields (x : FB) : make x.sign x.expo x.frac = x := by
  have h := x.bits.isLt
  have e : (make x.sign x.expo x.frac).bits = x.bits := by
    apply BitVec.eq_of_toNat_eq
    rw [make_toNat _ x.expo_lt x.frac_lt]
    simp only [sign, expo, frac, decide_eq_true_eq]
    split <;> omega
  cases x
  simpa [make] using e

/-- The exact scaled significand of a representable number. -/
theorem significand {q : ℚ} (h0 : q ≠ 0) (hr : Representable q) :
    ∃ m : ℕ, (ratAbs q * pow2 (-ulpExp q)).floor.toNat = m ∧ m < 2 ^ 24 ∧
      |q| = m * (2 : ℚ) ^ ulpExp q := by
  have h1 := roundQ_of_repr hr
  rw [roundQ_eq q h0] at h1
  generalize hz : roundEven (q * (2 : ℚ) ^ (-ulpExp q)) = z at h1
  have hp := two_zpow_pos (ulpExp q)
  have habs : |q| = (z.natAbs : ℚ) * (2 : ℚ) ^ ulpExp q := by
    conv_lhs => rw [← h1]
    rw [abs_mul, abs_of_pos hp]
    congr 1
    rw [← Int.cast_abs, Int.abs_eq_natAbs]
    simp
  have hs : ratAbs q * pow2 (-ulpExp q) = (z.natAbs : ℚ) := by
    rw [ratAbs_eq, pow2_eq, habs, mul_assoc, ← zpow_add₀ (by norm_num)]
    simp
  refine ⟨z.natAbs, ?_, ?_, habs⟩
  · rw [hs]
    have : ((z.natAbs : ℕ) : ℚ).floor = (z.natAbs : ℤ) := by
      have := Rat.floor_intCast (z.natAbs : ℤ)
      simpa using this
    rw [this]
    exact Int.toNat_natCast _
  · have := scaled_lt q h0
    rw [abs_mul, abs_of_pos (two_zpow_pos _), habs, mul_assoc, ← zpow_add₀ (by norm_num)] at this
    simp only [add_neg_cancel, zpow_zero, mul_one] at this
    exact_mod_cast this

/-- The fields of the bit pattern of a number other than zero. -/
theorem of_fin {q : ℚ} (h0 : q ≠ 0) (hr : Representable q) (hb : |q| < 2 ^ 128) (neg : Bool) :
    (of neg (.fin q)).sign = decide (q < 0) ∧ (of neg (.fin q)).val = .fin q := by
  obtain ⟨m, h1, h2, h3⟩ := significand h0 hr
  have hil := ilog2_le q h0
  have hk : ulpExp q = max (ilog2 q - 23) (-149) := rfl
  have hsgn : (if decide (q < 0) = true then -|q| else |q|) = q := by
    by_cases h : q < 0
    · simp [h, abs_of_neg h]
    · simp [h, abs_of_nonneg (not_lt.1 h)]
  have hu : ilog2 q < 128 := by
    by_contra hc
    have : (2 : ℚ) ^ (128 : ℤ) ≤ 2 ^ ilog2 q := zpow_le_zpow_right₀ (by norm_num) (by omega)
    have := this.trans hil.1
    norm_num at this hb
    linarith
  simp only [of, h0, if_false, h1]
  by_cases hm : m < 2 ^ 23
  · rw [if_pos hm]
    have hk' : ulpExp q = -149 := by
      by_contra hne
      have hke : ulpExp q = ilog2 q - 23 := by omega
      have h4 : (2 : ℚ) ^ 23 ≤ m := by
        have h5 := hil.1
        rw [h3, hke, show ilog2 q = 23 + (ilog2 q - 23) by ring, zpow_add₀ (by norm_num)] at h5
        have := le_of_mul_le_mul_right (by simpa using h5) (two_zpow_pos (ilog2 q - 23))
        simpa using this
      have : 2 ^ 23 ≤ m := by exact_mod_cast h4
      omega
    refine ⟨make_sign _ (by decide) hm, ?_⟩
    simp only [val, make_sign _ (show 0 < 256 by decide) hm, make_expo _ (show 0 < 256 by decide) hm,
      make_frac _ (show 0 < 256 by decide) hm]
    rw [if_neg (by decide), if_pos trivial, pow2_eq, ← hk', ← h3, hsgn]
  · rw [if_neg hm]
    have he : (ulpExp q + 150).toNat < 255 := by omega
    have he0 : (ulpExp q + 150).toNat ≠ 0 := by omega
    have hf : m - 2 ^ 23 < 2 ^ 23 := by omega
    refine ⟨make_sign _ (by omega) hf, ?_⟩
    simp only [val, make_sign _ (show (ulpExp q + 150).toNat < 256 by omega) hf,
      make_expo _ (show (ulpExp q + 150).toNat < 256 by omega) hf,
      make_frac _ (show (ulpExp q + 150).toNat < 256 by omega) hf]
    rw [if_neg (by omega), if_neg he0, pow2_eq, show 2 ^ 23 + (m - 2 ^ 23) = m by omega,
      show (((ulpExp q + 150).toNat : ℤ) - 150) = ulpExp q by omega, ← h3, hsgn]

theorem of_zero (neg : Bool) : (of neg (.fin 0)).sign = neg ∧ (of neg (.fin 0)).val = .fin 0 := by
  cases neg <;> exact ⟨by decide +kernel, by decide +kernel⟩

/-- A number survives being stored. -/
theorem val_of (neg : Bool) {x : F32} (h : x.IsSingle) : (of neg x).val = x := by
  cases x with
  | nan => show (⟨0x7FC00000#32⟩ : FB).val = _; decide +kernel
  | inf s => cases s <;> show (make _ 255 0).val = _ <;> decide +kernel
  | fin q =>
    by_cases h0 : q = 0
    · subst h0; exact (of_zero neg).2
    · exact (of_fin h0 h.1 h.2 neg).2

/-- The value of a bit pattern is a single precision number. -/
theorem val_isSingle (x : FB) : x.val.IsSingle := by
  have he := x.expo_lt
  have hf := x.frac_lt
  unfold val
  split
  · split <;> trivial
  · rename_i h
    have key : ∀ q : ℚ, Representable q ∧ |q| < 2 ^ 128 →
        F32.IsSingle (.fin (if x.sign then -q else q)) := by
      intro q ⟨h1, h2⟩
      cases x.sign
      · exact ⟨h1, h2⟩
      · exact ⟨repr_neg h1, by simpa using h2⟩
    apply key
    by_cases h0 : x.expo = 0
    · rw [if_pos h0, pow2_eq]
      refine ⟨⟨x.frac, -149, ?_, by norm_num, by simp⟩, ?_⟩
      · rw [abs_of_nonneg (by positivity)]; norm_num; omega
      · rw [abs_of_nonneg (by positivity)]
        have : (x.frac : ℚ) < 2 ^ 23 := by exact_mod_cast hf
        calc (x.frac : ℚ) * 2 ^ (-149 : ℤ) ≤ x.frac * 1 := by
              apply mul_le_mul_of_nonneg_left _ (by positivity)
              norm_num
          _ < 2 ^ 128 := by norm_num at this ⊢; linarith
    · rw [if_neg h0, pow2_eq]
      refine ⟨⟨((2 ^ 23 + x.frac : ℕ) : ℤ), (x.expo : ℤ) - 150, ?_, by omega, by push_cast; rfl⟩, ?_⟩
      · rw [abs_of_nonneg (by positivity)]; norm_num; omega
      · rw [abs_of_nonneg (by positivity)]
        have h1 : ((2 ^ 23 + x.frac : ℕ) : ℚ) < 2 ^ 24 := by
          have : 2 ^ 23 + x.frac < 2 ^ 24 := by omega
          exact_mod_cast this
        have h2 : (2 : ℚ) ^ ((x.expo : ℤ) - 150) ≤ 2 ^ (104 : ℤ) :=
          zpow_le_zpow_right₀ (by norm_num) (by omega)
        calc ((2 ^ 23 + x.frac : ℕ) : ℚ) * 2 ^ ((x.expo : ℤ) - 150)
            < 2 ^ 24 * 2 ^ ((x.expo : ℤ) - 150) := mul_lt_mul_of_pos_right h1 (two_zpow_pos _)
          _ ≤ 2 ^ 24 * 2 ^ (104 : ℤ) := mul_le_mul_of_nonneg_left h2 (by norm_num)
          _ = 2 ^ 128 := by norm_num

theorem add_isSingle {x y : F32} (hx : x.IsSingle) (hy : y.IsSingle) : (x + y).IsSingle := by
  show (F32.add x y).IsSingle
  cases x <;> cases y <;> simp only [F32.add] <;> try trivial
  · split <;> trivial
  · exact round_isSingle _

theorem mul_isSingle (x y : F32) : (x * y).IsSingle := by
  show (F32.mul x y).IsSingle
  cases x <;> cases y <;> simp only [F32.mul] <;> try trivial
  · split <;> trivial
  · split <;> trivial
  · exact round_isSingle _

theorem div_isSingle (x y : F32) : (x / y).IsSingle := by
  show (F32.div x y).IsSingle
  cases x <;> cases y <;> simp only [F32.div] <;> try trivial
  · exact ⟨repr_zero, by norm_num⟩
  · split
    · split <;> trivial
    · exact round_isSingle _

theorem val_lit (q : ℚ) : (lit q).val = F32.lit q := val_of _ (round_isSingle q)

theorem val_add (x y : FB) : (x + y).val = x.val + y.val :=
  val_of _ (add_isSingle x.val_isSingle y.val_isSingle)

theorem val_mul (x y : FB) : (x * y).val = x.val * y.val := val_of _ (mul_isSingle _ _)

theorem val_neg (x : FB) : (neg x).val = F32.neg x.val := by
  simp only [val, neg, make_sign _ x.expo_lt x.frac_lt, make_expo _ x.expo_lt x.frac_lt,
    make_frac _ x.expo_lt x.frac_lt]
  split
  · split <;> rfl
  · simp only [F32.neg]
    cases x.sign <;> simp

theorem val_sub (x y : FB) : (x - y).val = x.val - y.val := by
  show (add x (neg y)).val = F32.add x.val (F32.neg y.val)
  rw [← val_neg]
  exact val_add x (neg y)

/-- The sign of an infinity. -/
theorem sign_inf {x : FB} {s : Bool} (h : x.val = .inf s) : x.sign = s := by
  unfold val at h
  split at h
  · split at h
    · cases h; rfl
    · cases h
  · cases h

/-- The sign of a number other than zero. -/
theorem sign_fin {x : FB} {q : ℚ} (h : x.val = .fin q) (h0 : q ≠ 0) : x.sign = decide (q < 0) := by
  unfold val at h
  split at h
  · split at h <;> cases h
  · simp only [pow2_eq] at h
    have hp : 0 ≤ (if x.expo = 0 then (x.frac : ℚ) * 2 ^ (-149 : ℤ)
        else ((2 ^ 23 + x.frac : ℕ) : ℚ) * 2 ^ ((x.expo : ℤ) - 150)) := by
      split <;> positivity
    revert h
    generalize (if x.expo = 0 then (x.frac : ℚ) * 2 ^ (-149 : ℤ)
        else ((2 ^ 23 + x.frac : ℕ) : ℚ) * 2 ^ ((x.expo : ℤ) - 150)) = r at hp
    intro h
    cases hs : x.sign with
    | false =>
      simp only [hs, Bool.false_eq_true, if_false, F32.fin.injEq] at h
      subst h
      simpa using hp
    | true =>
      simp only [hs, if_true, F32.fin.injEq] at h
      subst h
      have : 0 < r := lt_of_le_of_ne hp (fun h => h0 (by simp [← h]))
      simpa using this

/-- Division, unless the divisor is a negative zero. -/
theorem val_div (x y : FB) (h : y.val = .fin 0 → y.sign = false) :
    (x / y).val = x.val / y.val := by
  show (div x y).val = _
  unfold div
  split
  · rename_i h0
    rw [h0, h h0]
    show _ = F32.div x.val (.fin 0)
    cases hx : x.val with
    | nan => simp only [true_or, if_true, F32.div]; exact val_of _ trivial
    | inf s =>
      simp only [F32.div, sign_inf hx]
      simp only [reduceCtorEq, or_self, if_false]
      rw [val_of _ (show F32.IsSingle (.inf _) from trivial)]
      simp
    | fin q =>
      simp only [F32.div, if_true]
      by_cases hq : q = 0
      · subst hq
        simp only [or_true, if_true]
        exact val_of _ trivial
      · simp only [reduceCtorEq, F32.fin.injEq, hq, or_self, if_false, sign_fin hx hq]
        rw [val_of _ (show F32.IsSingle (.inf _) from trivial)]
        simp
  · exact val_of _ (div_isSingle _ _)

/-- The sign of a stored number: that of a zero is chosen. -/
theorem sign_of_zero (neg : Bool) {x : F32} (h : x = .fin 0) : (of neg x).sign = neg := by
  subst h; exact (of_zero neg).1

/-- The absolute value given by an exponent and a fraction. -/
def mag (e f : Nat) : ℚ :=
  if e = 0 then (f : ℚ) * 2 ^ (-149 : ℤ) else ((2 ^ 23 + f : ℕ) : ℚ) * 2 ^ ((e : ℤ) - 150)

theorem mag_nonneg (e f : Nat) : 0 ≤ mag e f := by unfold mag; split <;> positivity

theorem mag_lt {e f e' f' : Nat} (he : e < e') (hf : f < 2 ^ 23) : mag e f < mag e' f' := by
  have h1 : mag e f < 2 ^ 23 * 2 ^ ((e : ℤ) - 149) := by
    unfold mag
    split
    · rename_i h
      have : (f : ℚ) < 2 ^ 23 := by exact_mod_cast hf
      subst h
      exact mul_lt_mul_of_pos_right this (two_zpow_pos _)
    · have : ((2 ^ 23 + f : ℕ) : ℚ) < 2 ^ 24 := by
        have : 2 ^ 23 + f < 2 ^ 24 := by omega
        exact_mod_cast this
      calc _ < 2 ^ 24 * (2 : ℚ) ^ ((e : ℤ) - 150) := mul_lt_mul_of_pos_right this (two_zpow_pos _)
        _ = _ := by
          rw [show (e : ℤ) - 149 = 1 + ((e : ℤ) - 150) by ring, zpow_add₀ (by norm_num)]
          ring
  refine lt_of_lt_of_le h1 ?_
  unfold mag
  rw [if_neg (by omega)]
  have h2 : (2 : ℚ) ^ ((e : ℤ) - 149) ≤ 2 ^ ((e' : ℤ) - 150) :=
    zpow_le_zpow_right₀ (by norm_num) (by omega)
  have h3 : (2 : ℚ) ^ 23 ≤ ((2 ^ 23 + f' : ℕ) : ℚ) := by push_cast; linarith [f'.cast_nonneg (α := ℚ)]
  exact mul_le_mul h3 h2 (two_zpow_pos _).le (by positivity)

theorem mag_inj {e f e' f' : Nat} (hf : f < 2 ^ 23) (hf' : f' < 2 ^ 23) (h : mag e f = mag e' f') :
    e = e' ∧ f = f' := by
  rcases Nat.lt_trichotomy e e' with he | he | he
  · exact absurd h (mag_lt he hf).ne
  · subst he
    refine ⟨rfl, ?_⟩
    unfold mag at h
    split at h
    · have := mul_right_cancel₀ (two_zpow_pos (-149)).ne' h
      exact_mod_cast this
    · have := mul_right_cancel₀ (two_zpow_pos _).ne' h
      have : 2 ^ 23 + f = 2 ^ 23 + f' := by exact_mod_cast this
      omega
  · exact absurd h (mag_lt he hf').ne'

theorem val_eq (x : FB) : x.val =
    if x.expo = 255 then (if x.frac = 0 then .inf x.sign else .nan)
    else .fin (if x.sign then -mag x.expo x.frac else mag x.expo x.frac) := by
  simp only [val, mag, pow2_eq]

/-- A bit pattern that is not a NaN is given by its sign and its value. -/
theorem ext {x y : FB} (hv : x.val = y.val) (hs : x.sign = y.sign) (hn : x.val ≠ .nan) : x = y := by
  rw [← make_fields x, ← make_fields y, hs]
  suffices x.expo = y.expo ∧ x.frac = y.frac by rw [this.1, this.2]
  rw [val_eq, val_eq] at hv
  rw [val_eq] at hn
  by_cases hx : x.expo = 255 <;> by_cases hy : y.expo = 255
  · simp only [hx, hy, if_true] at hv hn
    refine ⟨by rw [hx, hy], ?_⟩
    by_cases fx : x.frac = 0
    · by_cases fy : y.frac = 0
      · rw [fx, fy]
      · simp [fx, fy] at hv
    · simp [fx] at hn
  · simp only [hx, hy, if_true, if_false] at hv
    split at hv <;> cases hv
  · simp only [hx, hy, if_true, if_false] at hv
    by_cases fy : y.frac = 0 <;> simp [fy] at hv
  · simp only [hx, hy, if_false, hs, F32.fin.injEq] at hv
    apply mag_inj x.frac_lt y.frac_lt
    split at hv
    · exact neg_injective hv
    · exact hv

end FB

end Ur20
