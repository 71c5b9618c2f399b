import Verif.Lemmas.F32
import Verif.Spec.Analog
import Verif.Lemmas.Module

/-! The analog conversions in terms of `F32.roundQ`. -/

namespace Ur20

open Spec F32

/-! ### Operations -/

theorem lit_int (n : ℤ) (h : |n| ≤ 2 ^ 24) : F32.lit (n : ℚ) = .fin n := by
  refine round_of_repr (repr_int n h) ?_
  have : |(n : ℚ)| ≤ 2 ^ 24 := by exact_mod_cast h
  refine this.trans ?_
  norm_num

theorem lit_word (w : Word) : wordToF32 w = .fin (w.toInt : ℚ) := by
  apply lit_int
  have h1 := w.toInt_lt
  have h2 := w.le_toInt
  rw [abs_le]
  constructor <;> omega

theorem word_abs (w : Word) : |(w.toInt : ℚ)| ≤ 32768 := by
  have h1 := w.toInt_lt
  have h2 := w.le_toInt
  have : |w.toInt| ≤ 32768 := by rw [abs_le]; constructor <;> omega
  exact_mod_cast this

theorem fin_mul (a b : ℚ) : (F32.fin a) * (F32.fin b) = F32.round (a * b) := rfl

theorem fin_add (a b : ℚ) : (F32.fin a) + (F32.fin b) = F32.round (a + b) := rfl

theorem fin_sub (a b : ℚ) : (F32.fin a) - (F32.fin b) = F32.round (a - b) := by
  show F32.round (a + -b) = _
  rw [sub_eq_add_neg]

theorem fin_div (a b : ℚ) (h : b ≠ 0) : (F32.fin a) / (F32.fin b) = F32.round (a / b) := by
  show F32.div _ _ = _
  simp only [F32.div, if_neg h]

theorem small_le {q : ℚ} (h : |q| ≤ 2 ^ 64) : |q| ≤ (2 : ℚ) ^ (127 : ℤ) := h.trans (by norm_num)

theorem round_small {q : ℚ} (h : |q| ≤ 2 ^ 64) : F32.round q = .fin (roundQ q) := round_eq (small_le h)

theorem roundQ_small {q : ℚ} {k : ℕ} (h : |q| ≤ 2 ^ k) : |roundQ q| ≤ 2 ^ k := by
  have := roundQ_abs_le (q := q) (k := (k : ℤ)) (by omega) (by rwa [zpow_natCast])
  rwa [zpow_natCast] at this

/-- Absolute error, natural exponents. -/
theorem roundQ_err {q : ℚ} (k : ℕ) (h : |q| ≤ 2 ^ k) : |roundQ q - q| ≤ 2 ^ k / 2 ^ 25 := by
  have := roundQ_error q (k : ℤ) (by omega) (by rwa [zpow_natCast])
  rw [zpow_sub₀ (by norm_num), zpow_natCast] at this
  exact this

/-! ### The scales -/

theorem scale_cases {r : AnalogUIRange} {s : ℚ × ℚ} (h : uiScale r = some s) :
    s = (0, 20) ∨ s = (4, 20) ∨ s = (0, 10) ∨ s = (0, 5) ∨ s = (1, 5) ∨ s = (2, 10) := by
  cases r <;> simp only [uiScale, Option.some.injEq, reduceCtorEq] at h <;> subst h <;> simp

theorem factor_eq (f : DataFormat) : f.factor = .fin (fullScale f) := by
  cases f
  · exact lit_int 16384 (by norm_num)
  · exact lit_int 27648 (by norm_num)

/-- The decoded value. -/
def decodedQ (s : ℚ × ℚ) (f : DataFormat) (x : ℤ) : ℚ :=
  roundQ (roundQ (x * (s.2 - s.1) / fullScale f) + s.1)

theorem scaled_le {s : ℚ × ℚ} (hs : s = (0, 20) ∨ s = (4, 20) ∨ s = (0, 10) ∨ s = (0, 5) ∨
    s = (1, 5) ∨ s = (2, 10)) (f : DataFormat) {x : ℚ} (hx : |x| ≤ 32800) :
    |x * (s.2 - s.1) / fullScale f| ≤ 2 ^ 6 := by
  rw [abs_le] at hx ⊢
  obtain ⟨h1, h2⟩ := hx
  rcases hs with h | h | h | h | h | h <;> subst h <;> cases f <;> simp only [fullScale] <;>
    constructor <;> linarith

theorem div_factor (a : ℚ) (f : DataFormat) (h : |a| ≤ 2 ^ 40) :
    (F32.fin a) / (F32.fin (fullScale f)) = .fin (roundQ (a / fullScale f)) := by
  have hf : fullScale f ≠ 0 := by cases f <;> norm_num [fullScale]
  rw [fin_div _ _ hf]
  apply round_small
  rw [abs_div]
  have h1 : (1 : ℚ) ≤ |fullScale f| := by cases f <;> norm_num [fullScale]
  have h3 := div_le_self (abs_nonneg a) h1
  linarith [h3, show (2 : ℚ) ^ 40 ≤ 2 ^ 64 by norm_num]

/-- The product of a raw value and a span is exact. -/
theorem word_span (w : Word) (n : ℤ) (h : |n| ≤ 512) :
    wordToF32 w * F32.lit (n : ℚ) = .fin ((w.toInt : ℚ) * n) := by
  rw [lit_word, lit_int n (h.trans (by norm_num)), fin_mul]
  have hx : |w.toInt| ≤ 32768 := by exact_mod_cast word_abs w
  have hb : |w.toInt * n| ≤ 2 ^ 24 := by
    rw [abs_mul]
    have := mul_le_mul hx h (abs_nonneg n) (by norm_num)
    linarith
  have := lit_int (w.toInt * n) hb
  push_cast at this
  exact this

theorem decode_core (w : Word) (n : ℤ) (hn : |n| ≤ 512) (f : DataFormat) :
    wordToF32 w * F32.lit (n : ℚ) / f.factor = .fin (roundQ (w.toInt * n / fullScale f)) := by
  rw [word_span w n hn, factor_eq]
  apply div_factor
  rw [abs_mul]
  have hx := word_abs w
  have hn' : |(n : ℚ)| ≤ 512 := by exact_mod_cast hn
  have := mul_le_mul hx hn' (abs_nonneg _) (by norm_num)
  exact this.trans (by norm_num)

theorem decode_off (w : Word) (n o : ℤ) (hn : |n| ≤ 512) (ho : |o| ≤ 512) (f : DataFormat) :
    wordToF32 w * F32.lit (n : ℚ) / f.factor + F32.lit (o : ℚ) =
      .fin (roundQ (roundQ (w.toInt * n / fullScale f) + o)) := by
  rw [decode_core w n hn f, lit_int o (ho.trans (by norm_num)), fin_add]
  apply round_small
  have ho' : |(o : ℚ)| ≤ 512 := by exact_mod_cast ho
  have hx := word_abs w
  have hn' : |(n : ℚ)| ≤ 512 := by exact_mod_cast hn
  have hm : |(w.toInt : ℚ) * n / fullScale f| ≤ 2 ^ 24 := by
    rw [abs_div, abs_mul]
    have h1 : (1 : ℚ) ≤ |fullScale f| := by cases f <;> norm_num [fullScale]
    have h2 := mul_le_mul hx hn' (abs_nonneg _) (by norm_num)
    have h3 := div_le_self (mul_nonneg (abs_nonneg (w.toInt : ℚ)) (abs_nonneg (n : ℚ))) h1
    linarith
  have h4 := roundQ_small hm
  have h5 := abs_add_le (roundQ ((w.toInt : ℚ) * n / fullScale f)) (o : ℚ)
  linarith [show (2 : ℚ) ^ 24 + 512 ≤ 2 ^ 64 by norm_num]

theorem decode_eq (w : Word) (r : AnalogUIRange) (f : DataFormat) :
    u16ToAnalogUiValue w r f = (uiScale r).map fun s => .fin (decodedQ s f w.toInt) := by
  have e : ∀ y : ℚ, roundQ (roundQ y + 0) = roundQ y := fun y => by
    rw [add_zero, roundQ_of_repr (roundQ_repr y)]
  have c0 := fun n hn => decode_core w n hn f
  have c1 := fun n o hn ho => decode_off w n o hn ho f
  have d20 := c0 20 (by norm_num)
  have d10 := c0 10 (by norm_num)
  have d5 := c0 5 (by norm_num)
  have d16 := c1 16 4 (by norm_num) (by norm_num)
  have d4 := c1 4 1 (by norm_num) (by norm_num)
  have d8 := c1 8 2 (by norm_num) (by norm_num)
  push_cast at d20 d10 d5 d16 d4 d8
  cases r <;> simp only [u16ToAnalogUiValue, uiScale, Option.map_some, Option.map_none, decodedQ,
    sub_zero, e, d20, d10, d5] <;> norm_num
  · exact d16
  · exact d4
  · exact d8

/-! ### Encoding finite numbers -/

/-- The encoded raw value of a finite number, before saturation. -/
def encodedQ (s : ℚ × ℚ) (f : DataFormat) (v : ℚ) : ℚ :=
  roundQ (roundQ (fullScale f * roundQ (v - s.1)) / (s.2 - s.1))

theorem clampI16_le (z : ℤ) : -32768 ≤ clampI16 z ∧ clampI16 z ≤ 32767 := by
  unfold clampI16
  split_ifs <;> omega

theorem toI16_le (v : F32) : -32768 ≤ v.toI16 ∧ v.toI16 ≤ 32767 := by
  cases v with
  | nan => simp [F32.toI16]
  | inf b => cases b <;> simp [F32.toI16]
  | fin q => exact clampI16_le _

theorem f32ToWord_toInt (v : F32) : (f32ToWord v).toInt = v.toI16 := by
  obtain ⟨h1, h2⟩ := toI16_le v
  rw [f32ToWord, BitVec.toInt_ofInt]
  exact Int.bmod_eq_of_le (by norm_num; omega) (by norm_num; omega)

/-- The number converted to a register by `analogUiValueToU16`. -/
def rawF (s : ℚ × ℚ) (f : DataFormat) (v : F32) : F32 :=
  f.factor * (if s.1 = 0 then v else v - F32.lit s.1) / F32.lit (s.2 - s.1)

theorem encode_eq (v : F32) (r : AnalogUIRange) (f : DataFormat) (s : ℚ × ℚ)
    (hs : uiScale r = some s) : analogUiValueToU16 v r f = f32ToWord (rawF s f v) := by
  cases r <;> simp only [uiScale, Option.some.injEq, reduceCtorEq] at hs <;> subst hs <;>
    simp only [analogUiValueToU16, rawF] <;> norm_num

theorem encode_disabled (v : F32) (f : DataFormat) : analogUiValueToU16 v .Disabled f = 0#16 := by
  simp only [analogUiValueToU16]
  have : F32.lit 0 = .fin 0 := by
    have := lit_int 0 (by norm_num)
    exact_mod_cast this
  rw [this]
  apply BitVec.eq_of_toInt_eq
  rw [f32ToWord_toInt]
  have : truncQ 0 = 0 := by have := truncQ_int 0; exact_mod_cast this
  simp [F32.toI16, this, clampI16]

theorem span_lit {s : ℚ × ℚ} (hs : s = (0, 20) ∨ s = (4, 20) ∨ s = (0, 10) ∨ s = (0, 5) ∨
    s = (1, 5) ∨ s = (2, 10)) :
    F32.lit (s.2 - s.1) = .fin (s.2 - s.1) ∧ F32.lit s.1 = .fin s.1 ∧ 4 ≤ s.2 - s.1 ∧
      s.2 - s.1 ≤ 20 ∧ 0 ≤ s.1 ∧ s.1 ≤ 4 := by
  have l : ∀ n : ℤ, |n| ≤ 2 ^ 24 → F32.lit (n : ℚ) = .fin n := lit_int
  rcases hs with h | h | h | h | h | h <;> subst h <;> norm_num
  · exact ⟨by exact_mod_cast l 20 (by norm_num), by exact_mod_cast l 0 (by norm_num)⟩
  · exact ⟨by exact_mod_cast l 16 (by norm_num), by exact_mod_cast l 4 (by norm_num)⟩
  · exact ⟨by exact_mod_cast l 10 (by norm_num), by exact_mod_cast l 0 (by norm_num)⟩
  · exact ⟨by exact_mod_cast l 5 (by norm_num), by exact_mod_cast l 0 (by norm_num)⟩
  · exact ⟨by exact_mod_cast l 4 (by norm_num), by exact_mod_cast l 1 (by norm_num)⟩
  · exact ⟨by exact_mod_cast l 8 (by norm_num), by exact_mod_cast l 2 (by norm_num)⟩

theorem fullScale_bounds (f : DataFormat) : 16384 ≤ fullScale f ∧ fullScale f ≤ 27648 := by
  cases f <;> norm_num [fullScale]

theorem rawF_fin {s : ℚ × ℚ} (hs : s = (0, 20) ∨ s = (4, 20) ∨ s = (0, 10) ∨ s = (0, 5) ∨
    s = (1, 5) ∨ s = (2, 10)) (f : DataFormat) {v : ℚ} (hv : Representable v) (hb : |v| ≤ 2 ^ 30) :
    rawF s f (.fin v) = .fin (encodedQ s f v) := by
  obtain ⟨h1, h2, h3, h4, h5, h6⟩ := span_lit hs
  obtain ⟨h7, h8⟩ := fullScale_bounds f
  have hd : |v - s.1| ≤ 2 ^ 31 := by
    rw [abs_le] at hb ⊢
    constructor <;> linarith
  have hr := roundQ_small hd
  have e1 : (if s.1 = 0 then F32.fin v else F32.fin v - F32.lit s.1) = .fin (roundQ (v - s.1)) := by
    split
    · rename_i h0
      rw [h0, sub_zero, roundQ_of_repr hv]
    · rw [h2, fin_sub, round_small (hd.trans (by norm_num))]
  have hp : |fullScale f * roundQ (v - s.1)| ≤ 2 ^ 46 := by
    rw [abs_mul, abs_of_nonneg (by linarith)]
    have := mul_le_mul h8 hr (abs_nonneg _) (by norm_num)
    linarith [show (27648 : ℚ) * 2 ^ 31 ≤ 2 ^ 46 by norm_num]
  have hq := roundQ_small hp
  unfold rawF encodedQ
  rw [e1, h1, factor_eq, fin_mul, round_small (hp.trans (by norm_num)), fin_div _ _ (by linarith)]
  apply round_small
  rw [abs_div, abs_of_pos (show 0 < s.2 - s.1 by linarith)]
  have := div_le_self (abs_nonneg (roundQ (fullScale f * roundQ (v - s.1))))
    (show 1 ≤ s.2 - s.1 by linarith)
  linarith [show (2 : ℚ) ^ 46 ≤ 2 ^ 64 by norm_num]

/-- The accuracy of encoding near and inside the 16-bit range. -/
theorem encodedQ_near {s : ℚ × ℚ} (hs : s = (0, 20) ∨ s = (4, 20) ∨ s = (0, 10) ∨ s = (0, 5) ∨
    s = (1, 5) ∨ s = (2, 10)) (f : DataFormat) (v : ℚ) (hx : |exactRaw s f v| ≤ 32800) :
    |encodedQ s f v - exactRaw s f v| ≤ 1 / 16 := by
  obtain ⟨-, -, h3, h4, -, -⟩ := span_lit hs
  obtain ⟨h7, h8⟩ := fullScale_bounds f
  have hF : fullScale f ≠ 0 := by linarith
  have hsp : s.2 - s.1 ≠ 0 := by linarith
  -- the exact value in terms of the raw value
  have hy : v - s.1 = exactRaw s f v * (s.2 - s.1) / fullScale f := by
    unfold exactRaw
    field_simp
  have hyb := scaled_le hs f hx
  rw [← hy] at hyb
  have hyb' : |v - s.1| ≤ 2 ^ 6 := hyb
  generalize hX : exactRaw s f v = x at *
  have a1 := roundQ_err 6 hyb'
  have e2 : fullScale f * (v - s.1) = x * (s.2 - s.1) := by rw [hy]; field_simp
  generalize hB : roundQ (v - s.1) = b at *
  have a1' : |fullScale f * b - x * (s.2 - s.1)| ≤ 27648 * (2 ^ 6 / 2 ^ 25) := by
    rw [← e2, ← mul_sub, abs_mul, abs_of_nonneg (by linarith)]
    exact mul_le_mul h8 a1 (abs_nonneg _) (by norm_num)
  have hxs : |x * (s.2 - s.1)| ≤ 32800 * 20 := by
    rw [abs_mul, abs_of_nonneg (by linarith : 0 ≤ s.2 - s.1)]
    exact mul_le_mul hx h4 (by linarith) (by norm_num)
  have hFb : |fullScale f * b| ≤ 2 ^ 20 := by
    have := abs_sub_abs_le_abs_sub (fullScale f * b) (x * (s.2 - s.1))
    linarith [show (27648 : ℚ) * (2 ^ 6 / 2 ^ 25) + 32800 * 20 ≤ 2 ^ 20 by norm_num]
  have a2 := roundQ_err 20 hFb
  have hc : |roundQ (fullScale f * b) / (s.2 - s.1) - x| ≤ (27648 * (2 ^ 6 / 2 ^ 25) + 2 ^ 20 / 2 ^ 25) / 4 := by
    have e3 : roundQ (fullScale f * b) / (s.2 - s.1) - x =
        ((roundQ (fullScale f * b) - fullScale f * b) + (fullScale f * b - x * (s.2 - s.1))) /
          (s.2 - s.1) := by field_simp; ring
    rw [e3, abs_div, abs_of_pos (by linarith : 0 < s.2 - s.1)]
    have h9 := abs_add_le (roundQ (fullScale f * b) - fullScale f * b)
      (fullScale f * b - x * (s.2 - s.1))
    exact div_le_div₀ (by norm_num) (by linarith) (by norm_num) h3
  have hcb : |roundQ (fullScale f * b) / (s.2 - s.1)| ≤ 2 ^ 16 := by
    have := abs_sub_abs_le_abs_sub (roundQ (fullScale f * b) / (s.2 - s.1)) x
    linarith [show ((27648 : ℚ) * (2 ^ 6 / 2 ^ 25) + 2 ^ 20 / 2 ^ 25) / 4 + 32800 ≤ 2 ^ 16 by norm_num]
  have a3 := roundQ_err 16 hcb
  have e4 : encodedQ s f v - x =
      (roundQ (roundQ (fullScale f * b) / (s.2 - s.1)) - roundQ (fullScale f * b) / (s.2 - s.1)) +
      (roundQ (fullScale f * b) / (s.2 - s.1) - x) := by unfold encodedQ; rw [hB]; ring
  rw [e4]
  refine (abs_add_le _ _).trans ?_
  linarith [show (2 : ℚ) ^ 16 / 2 ^ 25 + (27648 * (2 ^ 6 / 2 ^ 25) + 2 ^ 20 / 2 ^ 25) / 4 ≤ 1 / 16 by
    norm_num]

theorem physical_eq (s : ℚ × ℚ) (f : DataFormat) (x : ℤ) :
    physical s f x = x * (s.2 - s.1) / fullScale f + s.1 := by
  unfold physical; ring

/-- The accuracy of decoding. -/
theorem decodedQ_near {s : ℚ × ℚ} (hs : s = (0, 20) ∨ s = (4, 20) ∨ s = (0, 10) ∨ s = (0, 5) ∨
    s = (1, 5) ∨ s = (2, 10)) (f : DataFormat) (x : ℤ) (hx : |x| ≤ 32768) :
    |decodedQ s f x - physical s f x| ≤ 2 ^ 8 / 2 ^ 25 ∧ |decodedQ s f x| ≤ 2 ^ 7 := by
  obtain ⟨-, -, -, -, h5, h6⟩ := span_lit hs
  have hx' : |(x : ℚ)| ≤ 32768 := by exact_mod_cast hx
  have h1 := scaled_le hs f (hx'.trans (by norm_num))
  have a1 := roundQ_err 6 h1
  have hb := roundQ_small h1
  rw [physical_eq]
  unfold decodedQ
  generalize (x : ℚ) * (s.2 - s.1) / fullScale f = y at *
  generalize roundQ y = z at *
  have hz : |z + s.1| ≤ 2 ^ 7 := by
    rw [abs_le] at hb ⊢
    constructor <;> linarith
  have a2 := roundQ_err 7 hz
  refine ⟨?_, roundQ_small hz⟩
  have e : roundQ (z + s.1) - (y + s.1) = (roundQ (z + s.1) - (z + s.1)) + (z - y) := by ring
  rw [e]
  refine (abs_add_le _ _).trans ?_
  linarith [show (2 : ℚ) ^ 7 / 2 ^ 25 + 2 ^ 6 / 2 ^ 25 ≤ 2 ^ 8 / 2 ^ 25 by norm_num]

/-- Decoding and encoding moves a raw value by less than one. -/
theorem round_trip_near {s : ℚ × ℚ} (hs : s = (0, 20) ∨ s = (4, 20) ∨ s = (0, 10) ∨ s = (0, 5) ∨
    s = (1, 5) ∨ s = (2, 10)) (f : DataFormat) (x : ℤ) (hx : |x| ≤ 32768) :
    |encodedQ s f (decodedQ s f x) - x| < 1 := by
  obtain ⟨-, -, h3, h4, h5, h6⟩ := span_lit hs
  obtain ⟨h7, h8⟩ := fullScale_bounds f
  have hsp : s.2 - s.1 ≠ 0 := by linarith
  have hF : fullScale f ≠ 0 := by linarith
  obtain ⟨a1, -⟩ := decodedQ_near hs f x hx
  have hx' : |(x : ℚ)| ≤ 32768 := by exact_mod_cast hx
  have e : exactRaw s f (decodedQ s f x) - x =
      (decodedQ s f x - physical s f x) * fullScale f / (s.2 - s.1) := by
    unfold exactRaw physical
    field_simp
    ring
  have hd : |exactRaw s f (decodedQ s f x) - x| ≤ 1 / 16 := by
    rw [e, abs_div, abs_mul, abs_of_pos (by linarith : 0 < s.2 - s.1),
      abs_of_pos (by linarith : 0 < fullScale f)]
    have := mul_le_mul a1 h8 (by linarith) (by norm_num)
    refine (div_le_div₀ (by norm_num) this (by norm_num) h3).trans (by norm_num)
  have hr : |exactRaw s f (decodedQ s f x)| ≤ 32800 := by
    have := abs_sub_abs_le_abs_sub (exactRaw s f (decodedQ s f x)) x
    linarith
  have hn := encodedQ_near hs f _ hr
  have e2 : encodedQ s f (decodedQ s f x) - x =
      (encodedQ s f (decodedQ s f x) - exactRaw s f (decodedQ s f x)) +
      (exactRaw s f (decodedQ s f x) - x) := by ring
  rw [e2]
  refine lt_of_le_of_lt (abs_add_le _ _) ?_
  linarith

/-- The register after decoding and encoding. -/
theorem round_trip_eq {r : AnalogUIRange} {s : ℚ × ℚ} (hs : uiScale r = some s) (f : DataFormat)
    (w : Word) :
    (analogUiValueToU16 (.fin (decodedQ s f w.toInt)) r f).toInt =
      clampI16 (truncQ (encodedQ s f (decodedQ s f w.toInt))) := by
  have hx : |w.toInt| ≤ 32768 := by exact_mod_cast word_abs w
  have hs' := scale_cases hs
  rw [encode_eq _ r f s hs, f32ToWord_toInt, rawF_fin (v := decodedQ s f w.toInt) hs' f (roundQ_repr _)
    ((decodedQ_near hs' f _ hx).2.trans (by norm_num))]
  rfl

/-- One decoding and encoding of a register keeps the value or moves it by one towards zero. -/
theorem round_trip_step {r : AnalogUIRange} {s : ℚ × ℚ} (hs : uiScale r = some s) (f : DataFormat)
    (w : Word) (z : ℤ) (hz : (analogUiValueToU16 (.fin (decodedQ s f w.toInt)) r f).toInt = z) :
    (0 < w.toInt → z = w.toInt ∨ z = w.toInt - 1) ∧
    (w.toInt < 0 → z = w.toInt ∨ z = w.toInt + 1) ∧ (w.toInt = 0 → z = 0) := by
  have hx : |w.toInt| ≤ 32768 := by exact_mod_cast word_abs w
  have h1 := w.toInt_lt
  have h2 := w.le_toInt
  rw [round_trip_eq hs] at hz
  obtain ⟨a, b, c⟩ := truncQ_near _ _ (round_trip_near (scale_cases hs) f _ hx)
  unfold clampI16 at hz
  norm_num at h1 h2
  refine ⟨fun h => ?_, fun h => ?_, fun h => ?_⟩
  · rcases a h with e | e <;> rw [e] at hz <;> split_ifs at hz <;> omega
  · rcases b h with e | e <;> rw [e] at hz <;> split_ifs at hz <;> omega
  · rw [c h] at hz; simpa using hz.symm

/-- Decoding and encoding is exact if the scaled raw value has at most 14 binary places. -/
theorem round_trip_exact {r : AnalogUIRange} {s : ℚ × ℚ} (hs : uiScale r = some s) (f : DataFormat)
    (w : Word) (a : ℤ) (ha : |a| ≤ 2 ^ 23) (he : (w.toInt : ℚ) * (s.2 - s.1) / fullScale f = a / 2 ^ 14) :
    decodedQ s f w.toInt = physical s f w.toInt ∧
      analogUiValueToU16 (.fin (decodedQ s f w.toInt)) r f = w := by
  have hs' := scale_cases hs
  obtain ⟨-, -, h3, h4, h5, h6⟩ := span_lit hs'
  obtain ⟨h7, h8⟩ := fullScale_bounds f
  have hx : |w.toInt| ≤ 32768 := by exact_mod_cast word_abs w
  have hlo : ∃ o : ℤ, s.1 = o ∧ |o| ≤ 4 := by
    rcases hs' with h | h | h | h | h | h <;> subst h
    · exact ⟨0, by norm_num, by norm_num⟩
    · exact ⟨4, by norm_num, by norm_num⟩
    · exact ⟨0, by norm_num, by norm_num⟩
    · exact ⟨0, by norm_num, by norm_num⟩
    · exact ⟨1, by norm_num, by norm_num⟩
    · exact ⟨2, by norm_num, by norm_num⟩
  obtain ⟨o, ho, hob⟩ := hlo
  have hsn : ∃ n : ℤ, s.2 - s.1 = n ∧ |n| ≤ 20 := by
    rcases hs' with h | h | h | h | h | h <;> subst h
    · exact ⟨20, by norm_num, by norm_num⟩
    · exact ⟨16, by norm_num, by norm_num⟩
    · exact ⟨10, by norm_num, by norm_num⟩
    · exact ⟨5, by norm_num, by norm_num⟩
    · exact ⟨4, by norm_num, by norm_num⟩
    · exact ⟨8, by norm_num, by norm_num⟩
  obtain ⟨n, hn, hnb⟩ := hsn
  have r1 : Representable ((a : ℚ) / 2 ^ 14) := repr_int_div a 14 (ha.trans (by norm_num)) (by norm_num)
  have r2 : Representable ((a : ℚ) / 2 ^ 14 + s.1) := by
    have := repr_int_div (a + o * 2 ^ 14) 14 (by rw [abs_le] at *; constructor <;> omega) (by norm_num)
    have e : ((a + o * 2 ^ 14 : ℤ) : ℚ) / 2 ^ 14 = (a : ℚ) / 2 ^ 14 + s.1 := by
      rw [ho]; push_cast; ring
    rwa [e] at this
  have hd : decodedQ s f w.toInt = (a : ℚ) / 2 ^ 14 + s.1 := by
    unfold decodedQ
    rw [he, roundQ_of_repr r1, roundQ_of_repr r2]
  refine ⟨by rw [hd, physical_eq, he], ?_⟩
  apply BitVec.eq_of_toInt_eq
  have r3 : Representable ((w.toInt : ℚ) * (s.2 - s.1)) := by
    have := repr_int (w.toInt * n) (by
      rw [abs_mul]
      have := mul_le_mul hx hnb (abs_nonneg n) (by norm_num)
      linarith)
    rw [hn]
    exact_mod_cast this
  have r4 : Representable (w.toInt : ℚ) := repr_int _ (hx.trans (by norm_num))
  have hen : encodedQ s f (decodedQ s f w.toInt) = w.toInt := by
    unfold encodedQ
    rw [hd, add_sub_cancel_right, roundQ_of_repr r1, ← he,
      mul_div_cancel₀ _ (by linarith : fullScale f ≠ 0), roundQ_of_repr r3,
      mul_div_cancel_right₀ _ (by linarith : s.2 - s.1 ≠ 0), roundQ_of_repr r4]
  rw [round_trip_eq hs, hen, truncQ_int]
  have h1 := w.toInt_lt
  have h2 := w.le_toInt
  norm_num at h1 h2
  unfold clampI16
  split_ifs <;> omega

/-! ### Monotonicity -/

theorem round_cases (q : ℚ) :
    (|roundQ q| < 2 ^ 128 ∧ F32.round q = .fin (roundQ q)) ∨
    ((2 : ℚ) ^ 128 ≤ roundQ q ∧ F32.round q = .inf false) ∨
    (roundQ q ≤ -(2 : ℚ) ^ 128 ∧ F32.round q = .inf true) := by
  have e : pow2 128 = (2 : ℚ) ^ 128 := by
    rw [pow2_eq]; norm_num
  by_cases h : (2 : ℚ) ^ 128 ≤ |roundQ q|
  · have hr : F32.round q = .inf (decide (q < 0)) := by
      unfold F32.round
      simp only [e, ratAbs_eq, if_pos h]
    rcases le_or_gt 0 q with hq | hq
    · rw [abs_of_nonneg (roundQ_nonneg hq)] at h
      exact .inr (.inl ⟨h, by rw [hr, decide_eq_false (not_lt.mpr hq)]⟩)
    · rw [abs_of_nonpos (roundQ_nonpos hq.le)] at h
      exact .inr (.inr ⟨by linarith, by rw [hr, decide_eq_true hq]⟩)
  · refine .inl ⟨not_le.mp h, ?_⟩
    unfold F32.round
    simp only [e, ratAbs_eq, if_neg h]

theorem le_inf_false {x : F32} (h : x ≠ .nan) : F32Le x (.inf false) := by
  cases x with
  | nan => exact absurd rfl h
  | inf b => cases b <;> simp [F32Le]
  | fin q => simp [F32Le]

theorem inf_true_le {x : F32} (h : x ≠ .nan) : F32Le (.inf true) x := by
  cases x with
  | nan => exact absurd rfl h
  | inf b => cases b <;> simp [F32Le]
  | fin q => simp [F32Le]

theorem round_ne_nan (q : ℚ) : F32.round q ≠ .nan := by
  rcases round_cases q with ⟨-, h⟩ | ⟨-, h⟩ | ⟨-, h⟩ <;> rw [h] <;> simp

theorem round_mono {p q : ℚ} (h : p ≤ q) : F32Le (F32.round p) (F32.round q) := by
  have hm := roundQ_mono h
  have hpos : (0 : ℚ) < 2 ^ 128 := by norm_num
  rcases round_cases p with ⟨hp, ep⟩ | ⟨hp, ep⟩ | ⟨hp, ep⟩
  · rcases round_cases q with ⟨hq, eq⟩ | ⟨hq, eq⟩ | ⟨hq, eq⟩
    · rw [ep, eq]; exact hm
    · rw [eq]; exact le_inf_false (round_ne_nan p)
    · have := (abs_lt.mp hp).1; linarith
  · rcases round_cases q with ⟨hq, eq⟩ | ⟨hq, eq⟩ | ⟨hq, eq⟩
    · have := (abs_lt.mp hq).2; linarith
    · rw [eq]; exact le_inf_false (round_ne_nan p)
    · linarith
  · rw [ep]; exact inf_true_le (round_ne_nan q)

theorem F32Le.ne_nan {x y : F32} (h : F32Le x y) : x ≠ .nan ∧ y ≠ .nan := by
  constructor
  · rintro rfl; exact h
  · rintro rfl; cases x <;> exact h

theorem mul_mono {x y : F32} (h : F32Le x y) {c : ℚ} (hc : 0 < c) :
    F32Le (.fin c * x) (.fin c * y) := by
  have hi : ∀ b, (F32.fin c) * (F32.inf b) = .inf b := by
    intro b
    show F32.mul _ _ = _
    simp [F32.mul, hc.ne', not_lt.mpr hc.le]
  cases x with
  | nan => exact h.elim
  | inf b =>
    cases b with
    | true =>
      rw [hi]
      apply inf_true_le
      cases y with
      | nan => exact absurd h id
      | inf b => rw [hi]; simp
      | fin q => exact round_ne_nan _
    | false =>
      cases y with
      | nan => exact absurd h id
      | inf b => cases b <;> simp_all [F32Le]
      | fin q => exact absurd h id
  | fin p =>
    cases y with
    | nan => exact absurd h id
    | inf b =>
      cases b with
      | true => exact absurd h id
      | false => rw [hi]; exact le_inf_false (round_ne_nan _)
    | fin q => exact round_mono (mul_le_mul_of_nonneg_left h hc.le)

theorem div_mono {x y : F32} (h : F32Le x y) {c : ℚ} (hc : 0 < c) :
    F32Le (x / .fin c) (y / .fin c) := by
  have hi : ∀ b, (F32.inf b) / (F32.fin c) = .inf b := by
    intro b
    show F32.div _ _ = _
    simp [F32.div, not_lt.mpr hc.le]
  cases x with
  | nan => exact h.elim
  | inf b =>
    cases b with
    | true =>
      rw [hi]
      apply inf_true_le
      cases y with
      | nan => exact absurd h id
      | inf b => rw [hi]; simp
      | fin q => rw [fin_div _ _ hc.ne']; exact round_ne_nan _
    | false =>
      cases y with
      | nan => exact absurd h id
      | inf b => cases b <;> simp_all [F32Le]
      | fin q => exact absurd h id
  | fin p =>
    rw [fin_div _ _ hc.ne']
    cases y with
    | nan => exact absurd h id
    | inf b =>
      cases b with
      | true => exact absurd h id
      | false => rw [hi]; exact le_inf_false (round_ne_nan _)
    | fin q =>
      rw [fin_div _ _ hc.ne']
      exact round_mono (div_le_div_of_nonneg_right h hc.le)

theorem sub_mono {x y : F32} (h : F32Le x y) (c : ℚ) :
    F32Le (x - .fin c) (y - .fin c) := by
  have hi : ∀ b, (F32.inf b) - (F32.fin c) = .inf b := fun b => rfl
  cases x with
  | nan => exact h.elim
  | inf b =>
    cases b with
    | true =>
      rw [hi]
      apply inf_true_le
      cases y with
      | nan => exact absurd h id
      | inf b => rw [hi]; simp
      | fin q => rw [fin_sub]; exact round_ne_nan _
    | false =>
      cases y with
      | nan => exact absurd h id
      | inf b => cases b <;> simp_all [F32Le]
      | fin q => exact absurd h id
  | fin p =>
    rw [fin_sub]
    cases y with
    | nan => exact absurd h id
    | inf b =>
      cases b with
      | true => exact absurd h id
      | false => rw [hi]; exact le_inf_false (round_ne_nan _)
    | fin q =>
      rw [fin_sub]
      exact round_mono (sub_le_sub_right h c)

theorem clampI16_mono {a b : ℤ} (h : a ≤ b) : clampI16 a ≤ clampI16 b := by
  unfold clampI16
  split_ifs <;> omega

theorem toI16_mono {x y : F32} (h : F32Le x y) : x.toI16 ≤ y.toI16 := by
  have hx := toI16_le x
  have hy := toI16_le y
  cases x with
  | nan => exact h.elim
  | inf b =>
    cases b with
    | true => exact hy.1
    | false =>
      cases y with
      | nan => exact absurd h id
      | inf b => cases b <;> simp_all [F32Le]
      | fin q => exact absurd h id
  | fin p =>
    cases y with
    | nan => exact absurd h id
    | inf b =>
      cases b with
      | true => exact absurd h id
      | false => exact hx.2
    | fin q => exact clampI16_mono (truncQ_mono h)

theorem rawF_mono {s : ℚ × ℚ} (hs : s = (0, 20) ∨ s = (4, 20) ∨ s = (0, 10) ∨ s = (0, 5) ∨
    s = (1, 5) ∨ s = (2, 10)) (f : DataFormat) {x y : F32} (h : F32Le x y) :
    F32Le (rawF s f x) (rawF s f y) := by
  obtain ⟨h1, h2, h3, -, -, -⟩ := span_lit hs
  obtain ⟨h7, -⟩ := fullScale_bounds f
  unfold rawF
  rw [h1, h2, factor_eq]
  apply div_mono _ (by linarith)
  apply mul_mono _ (by linarith)
  split
  · exact h
  · exact sub_mono h _

theorem encode_mono (r : AnalogUIRange) (f : DataFormat) {x y : F32} (h : F32Le x y) :
    (analogUiValueToU16 x r f).toInt ≤ (analogUiValueToU16 y r f).toInt := by
  cases hs : uiScale r with
  | none =>
    cases r <;> simp only [uiScale, reduceCtorEq] at hs
    rw [encode_disabled, encode_disabled]
  | some s =>
    rw [encode_eq x r f s hs, encode_eq y r f s hs, f32ToWord_toInt, f32ToWord_toInt]
    exact toI16_mono (rawF_mono (scale_cases hs) f h)

theorem decodedQ_mono {s : ℚ × ℚ} (hs : s = (0, 20) ∨ s = (4, 20) ∨ s = (0, 10) ∨ s = (0, 5) ∨
    s = (1, 5) ∨ s = (2, 10)) (f : DataFormat) {x y : ℤ} (h : x ≤ y) :
    decodedQ s f x ≤ decodedQ s f y := by
  obtain ⟨-, -, h3, -, -, -⟩ := span_lit hs
  obtain ⟨h7, -⟩ := fullScale_bounds f
  unfold decodedQ
  apply roundQ_mono
  have h' : (x : ℚ) ≤ y := by exact_mod_cast h
  have := roundQ_mono (div_le_div_of_nonneg_right
    (mul_le_mul_of_nonneg_right h' (show 0 ≤ s.2 - s.1 by linarith)) (show 0 ≤ fullScale f by linarith))
  linarith

/-! ### Single precision numbers -/

theorem single_of_representable {q : ℚ} (h : Representable q) (hb : |q| < 2 ^ 128) : Single q := by
  by_cases h0 : q = 0
  · exact ⟨0, 0, by norm_num, by norm_num, by norm_num, by simp [h0]⟩
  have key : ∃ m k : ℤ, |m| < 2 ^ 24 ∧ -149 ≤ k ∧ q = m * (2 : ℚ) ^ k := by
    obtain ⟨m, k, hm, hk, hq⟩ := h
    by_cases he : |m| < 2 ^ 24
    · exact ⟨m, k, he, hk, hq⟩
    · have he : |m| = 2 ^ 24 := by omega
      rcases abs_eq (by norm_num : (0 : ℤ) ≤ 2 ^ 24) |>.mp he with e | e
      · refine ⟨2 ^ 23, k + 1, by norm_num, by omega, ?_⟩
        rw [hq, e, zpow_add₀ (by norm_num)]
        push_cast
        ring
      · refine ⟨-2 ^ 23, k + 1, by norm_num, by omega, ?_⟩
        rw [hq, e, zpow_add₀ (by norm_num)]
        push_cast
        ring
  obtain ⟨m, k, hm, hk, hq⟩ := key
  by_cases hk' : k ≤ 104
  · exact ⟨m, k, hm, hk, hk', hq⟩
  · refine ⟨m * 2 ^ (k - 104).toNat, 104, ?_, by norm_num, le_rfl, ?_⟩
    · have e : |q| = |((m * 2 ^ (k - 104).toNat : ℤ) : ℚ)| * 2 ^ 104 := by
        rw [hq]
        have : (2 : ℚ) ^ k = 2 ^ (k - 104).toNat * 2 ^ 104 := by
          rw [← pow_add, ← zpow_natCast]
          congr 1
          push_cast
          omega
        rw [this, abs_mul, abs_of_pos (by positivity : (0 : ℚ) < 2 ^ (k - 104).toNat * 2 ^ 104)]
        push_cast
        rw [abs_mul, abs_of_pos (by positivity : (0 : ℚ) < 2 ^ (k - 104).toNat)]
        ring
      have h2 : |((m * 2 ^ (k - 104).toNat : ℤ) : ℚ)| < 2 ^ 24 := by
        by_contra hc
        have hc := not_lt.mp hc
        have := mul_le_mul_of_nonneg_right hc (show (0 : ℚ) ≤ 2 ^ 104 by norm_num)
        rw [← e] at this
        linarith [show (2 : ℚ) ^ 24 * 2 ^ 104 = 2 ^ 128 by norm_num]
      exact_mod_cast h2
    · rw [hq]
      have : (2 : ℚ) ^ k = 2 ^ (k - 104).toNat * (2 : ℚ) ^ (104 : ℤ) := by
        rw [← zpow_natCast, ← zpow_add₀ (by norm_num)]
        congr 1
        omega
      rw [this]
      push_cast
      ring

theorem representable_of_single {q : ℚ} (h : Single q) : Representable q := by
  obtain ⟨m, e, hm, he, -, hq⟩ := h
  exact ⟨m, e, hm.le, he, hq⟩

theorem nearest_roundQ {q : ℚ} (h : |q| ≤ 2 ^ 64) : IsNearest (roundQ q) q := by
  refine ⟨single_of_representable (roundQ_repr q) (lt_of_le_of_lt (roundQ_small h) (by norm_num)),
    fun r hr => roundQ_nearest q (representable_of_single hr)⟩

end Ur20
