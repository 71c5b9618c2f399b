import Verif.Lemmas.F32Bits

/-! # Floats as bit patterns: C94 -/

namespace Ur20

open F32

namespace FB

/-- A finite number of moderate size that is not a negative zero. -/
def Mid (x : FB) (k u : ℕ) : Prop :=
  ∃ a : ℚ, x.val = .fin a ∧ (a = 0 → x.sign = false) ∧ (a = 0 ∨ 1 / 2 ^ k ≤ |a|) ∧ |a| ≤ 2 ^ u

/-- A positive number of moderate size. -/
def Const (x : FB) (i j : ℕ) : Prop := ∃ b : ℚ, x.val = .fin b ∧ 1 / 2 ^ j ≤ b ∧ b ≤ 2 ^ i

theorem roundQ_ge {q : ℚ} {k : ℕ} (hk : k ≤ 120) (h : 1 / 2 ^ k ≤ |q|) :
    1 / 2 ^ (k + 1) ≤ |roundQ q| := by
  have h1 : (2 : ℚ) ^ (-126 : ℤ) ≤ |q| := by
    refine le_trans ?_ h
    rw [zpow_neg, ← one_div]
    exact one_div_le_one_div_of_le (by positivity) (by
      have : (2 : ℚ) ^ k ≤ 2 ^ 120 := pow_le_pow_right₀ (by norm_num) hk
      refine this.trans (by norm_num))
  have h2 := roundQ_rel q (Or.inr h1)
  have h3 : |q| ≤ |roundQ q - q| + |roundQ q| := by
    calc |q| = |roundQ q - (roundQ q - q)| := by ring_nf
      _ ≤ |roundQ q| + |roundQ q - q| := abs_sub _ _
      _ = _ := by ring
  have h4 : (2 : ℚ) ^ (-24 : ℤ) * |q| ≤ |q| / 2 := by
    have := abs_nonneg q
    norm_num
    linarith
  have h5 : (1 : ℚ) / 2 ^ (k + 1) = 1 / 2 ^ k / 2 := by rw [pow_succ]; field_simp
  rw [h5]
  have h6 := h2.trans h4
  clear h2 h4 h1 h5
  generalize 1 / (2 : ℚ) ^ k = c at h
  linarith

theorem Const.sign {x : FB} {i j : ℕ} (h : Const x i j) : x.sign = false := by
  obtain ⟨b, h1, h2, -⟩ := h
  have : (0 : ℚ) < b := lt_of_lt_of_le (by positivity) h2
  rw [sign_fin h1 this.ne']
  simp [this.le]

theorem Const.ne {x : FB} {i j : ℕ} (h : Const x i j) : x.val ≠ .fin 0 := by
  obtain ⟨b, h1, h2, -⟩ := h
  have : (0 : ℚ) < b := lt_of_lt_of_le (by positivity) h2
  rw [h1]
  intro h
  cases h
  exact lt_irrefl _ this

theorem Mid.round {x : FB} {q : ℚ} {neg : Bool} (hx : x = of neg (F32.round q)) {k u : ℕ}
    (hk : k ≤ 120) (hu : u ≤ 64) (h0 : q = 0 → neg = false) (h1 : q = 0 ∨ 1 / 2 ^ k ≤ |q|)
    (h2 : |q| ≤ 2 ^ u) : Mid x (k + 1) u := by
  have hr : F32.round q = .fin (roundQ q) :=
    round_small (h2.trans (pow_le_pow_right₀ (by norm_num) hu))
  refine ⟨roundQ q, ?_, ?_, ?_, roundQ_small h2⟩
  · rw [hx, val_of _ (round_isSingle q), hr]
  · intro hz
    rcases h1 with h1 | h1
    · rw [hx, hr, hz, (of_zero neg).1, h0 h1]
    · have := roundQ_ge hk h1
      rw [hz, abs_zero] at this
      exact absurd this (not_le.2 (by positivity))
  · rcases h1 with h1 | h1
    · left; rw [h1, roundQ_zero]
    · right; exact roundQ_ge hk h1

theorem Mid.mul {x y : FB} {k u i j : ℕ} (h : Mid x k u) (hc : Const y i j) (hk : k + j ≤ 120)
    (hu : u + i ≤ 64) : Mid (x * y) (k + j + 1) (u + i) := by
  have hs := hc.sign
  obtain ⟨a, h1, h2, h3, h4⟩ := h
  obtain ⟨b, c1, c2, c3⟩ := hc
  have hb : (0 : ℚ) < b := lt_of_lt_of_le (by positivity) c2
  refine Mid.round (q := a * b) (neg := x.sign != y.sign) ?_ hk hu ?_ ?_ ?_
  · show FB.mul x y = _
    rw [FB.mul, h1, c1, fin_mul]
  · intro h
    rcases mul_eq_zero.1 h with h | h
    · rw [h2 h, hs]; rfl
    · exact absurd h hb.ne'
  · rcases h3 with h3 | h3
    · left; rw [h3, zero_mul]
    · right
      rw [abs_mul, abs_of_pos hb, pow_add, ← one_div_mul_one_div]
      exact mul_le_mul h3 c2 (by positivity) (abs_nonneg a)
  · rw [abs_mul, abs_of_pos hb, pow_add]
    exact mul_le_mul h4 c3 hb.le (by positivity)

theorem Mid.div {x y : FB} {k u i j : ℕ} (h : Mid x k u) (hc : Const y i j) (hk : k + i ≤ 120)
    (hu : u + j ≤ 64) : Mid (x / y) (k + i + 1) (u + j) := by
  have hs := hc.sign
  have hn := hc.ne
  obtain ⟨a, h1, h2, h3, h4⟩ := h
  obtain ⟨b, c1, c2, c3⟩ := hc
  have hb : (0 : ℚ) < b := lt_of_lt_of_le (by positivity) c2
  refine Mid.round (q := a / b) (neg := x.sign != y.sign) ?_ hk hu ?_ ?_ ?_
  · show FB.div x y = _
    rw [FB.div, if_neg hn, h1, c1, fin_div _ _ hb.ne']
  · intro h
    rcases div_eq_zero_iff.1 h with h | h
    · rw [h2 h, hs]; rfl
    · exact absurd h hb.ne'
  · rcases h3 with h3 | h3
    · left; rw [h3, zero_div]
    · right
      rw [abs_div, abs_of_pos hb, pow_add, ← one_div_mul_one_div, div_eq_mul_one_div |a|]
      exact mul_le_mul h3 (one_div_le_one_div_of_le hb c3) (by positivity) (abs_nonneg a)
  · rw [abs_div, abs_of_pos hb, pow_add, div_eq_mul_one_div |a|]
    refine mul_le_mul h4 ?_ (by positivity) (by positivity)
    have := one_div_le_one_div_of_le (by positivity) c2
    simpa using this

theorem mul_comm' (x y : FB) : x * y = y * x := by
  show FB.mul x y = FB.mul y x
  have : ∀ a b : F32, a * b = b * a := by
    intro a b
    show F32.mul a b = F32.mul b a
    cases a <;> cases b <;> simp only [F32.mul] <;> try rfl
    · rename_i a b; cases a <;> cases b <;> rfl
    · rename_i a q; split <;> first | rfl | (cases a <;> simp)
    · rename_i q a; split <;> first | rfl | (cases a <;> simp)
    · rw [mul_comm]
  rw [FB.mul, FB.mul, this]
  congr 1
  cases x.sign <;> cases y.sign <;> rfl

/-- Finite, and not a negative zero. -/
def Proper (x : FB) : Prop := x.expo ≠ 255 ∧ x.bits ≠ 0x80000000#32

theorem proper_of {x : FB} {a : ℚ} (h1 : x.val = .fin a) (h2 : a = 0 → x.sign = false) :
    Proper x := by
  constructor
  · intro h
    rw [val_eq, if_pos h] at h1
    split at h1 <;> cases h1
  · intro h
    have hx : x = ⟨0x80000000#32⟩ := by cases x; simpa using h
    subst hx
    have hv : (⟨0x80000000#32⟩ : FB).val = .fin 0 := by decide +kernel
    rw [hv] at h1
    cases h1
    exact absurd (h2 rfl) (by decide)

theorem Mid.proper {x : FB} {k u : ℕ} (h : Mid x k u) : Proper x := by
  obtain ⟨a, h1, h2, -⟩ := h
  exact proper_of h1 h2

theorem Mid.add_proper {x y : FB} {k u i j : ℕ} (h : Mid x k u) (hc : Const y i j) (hu : u ≤ 63)
    (hi : i ≤ 63) : Proper (x + y) := by
  have hs := hc.sign
  obtain ⟨a, h1, h2, h3, h4⟩ := h
  obtain ⟨b, c1, c2, c3⟩ := hc
  have hb : (0 : ℚ) < b := lt_of_lt_of_le (by positivity) c2
  have hab : |a + b| ≤ 2 ^ 64 := by
    have e1 : (2 : ℚ) ^ u ≤ 2 ^ 63 := pow_le_pow_right₀ (by norm_num) hu
    have e2 : (2 : ℚ) ^ i ≤ 2 ^ 63 := pow_le_pow_right₀ (by norm_num) hi
    have := abs_add_le a b
    rw [abs_of_pos hb] at this
    norm_num at e1 e2 ⊢
    linarith
  have hv : (x + y).val = .fin (roundQ (a + b)) := by
    rw [val_add, h1, c1, fin_add, round_small hab]
  refine proper_of hv fun hz => ?_
  show (FB.add x y).sign = false
  rw [FB.add, h1, c1, fin_add, round_small hab, hz, (of_zero _).1, hs, Bool.and_false]

theorem ofWord_mid (w : Word) : Mid (ofWord w) 1 15 := by
  have h := word_abs w
  refine Mid.round (q := (w.toInt : ℚ)) (neg := false) rfl (k := 0) (by norm_num) (by norm_num)
    (fun _ => rfl) ?_ (by norm_num; exact h)
  by_cases h0 : w.toInt = 0
  · left; rw [h0]; rfl
  · right
    have : (1 : ℤ) ≤ |w.toInt| := Int.one_le_abs h0
    have : (1 : ℚ) ≤ |(w.toInt : ℚ)| := by exact_mod_cast this
    simpa using this

theorem ofNat_mid (w : Word) : Mid (lit (w.toNat : ℚ)) 1 16 := by
  refine Mid.round (q := (w.toNat : ℚ)) (neg := false) rfl (k := 0) (by norm_num) (by norm_num)
    (fun _ => rfl) ?_ ?_
  · by_cases h0 : w.toNat = 0
    · left; rw [h0]; rfl
    · right
      have : 1 ≤ w.toNat := by omega
      have : (1 : ℚ) ≤ (w.toNat : ℚ) := by exact_mod_cast this
      rw [abs_of_nonneg (by positivity)]
      simpa using this
  · rw [abs_of_nonneg (by positivity)]
    have := w.isLt
    have : w.toNat ≤ 2 ^ 16 := by omega
    exact_mod_cast this

theorem const_int (n : ℤ) (h1 : 1 ≤ n) (h2 : n ≤ 32768) : Const (lit (n : ℚ)) 15 0 := by
  refine ⟨n, ?_, by norm_num; exact_mod_cast h1, by norm_num; exact_mod_cast h2⟩
  rw [val_lit, lit_int n (by rw [abs_of_pos (by omega)]; norm_num; omega)]

theorem const_of {q b : ℚ} (h : F32.lit q = .fin b) (h1 : 1 / 2 ^ 6 ≤ b) (h2 : b ≤ 1) :
    Const (lit q) 0 6 := ⟨b, by rw [val_lit, h], h1, by simpa using h2⟩

theorem factor_const (f : DataFormat) : Const (factor f) 15 0 := by
  cases f
  · exact const_int 16384 (by norm_num) (by norm_num)
  · exact const_int 27648 (by norm_num) (by norm_num)

theorem val_factor (f : DataFormat) : (factor f).val = f.factor := by
  cases f <;> exact val_lit _

theorem Const.div {y : FB} {i j : ℕ} (h : Const y i j) (x : FB) : (x / y).val = x.val / y.val :=
  val_div x y fun h0 => absurd h0 h.ne

/-- A quotient by a positive integer literal. -/
theorem val_div_int (x : FB) (n : ℤ) (h1 : 1 ≤ n) (h2 : n ≤ 32768) :
    (x / lit (n : ℚ)).val = x.val / F32.lit (n : ℚ) := by
  rw [(const_int n h1 h2).div, val_lit]

theorem val_div_factor (x : FB) (f : DataFormat) : (x / factor f).val = x.val / f.factor := by
  rw [(factor_const f).div, val_factor]

theorem val_ofWord (w : Word) : (ofWord w).val = wordToF32 w := val_lit _

end FB

/-! ### C94 -/

open FB

theorem div20 (x : FB) : (x / FB.lit 20).val = x.val / F32.lit 20 := val_div_int x 20 (by decide) (by decide)
theorem div16 (x : FB) : (x / FB.lit 16).val = x.val / F32.lit 16 := val_div_int x 16 (by decide) (by decide)
theorem div10 (x : FB) : (x / FB.lit 10).val = x.val / F32.lit 10 := val_div_int x 10 (by decide) (by decide)
theorem div5 (x : FB) : (x / FB.lit 5).val = x.val / F32.lit 5 := val_div_int x 5 (by decide) (by decide)
theorem div4 (x : FB) : (x / FB.lit 4).val = x.val / F32.lit 4 := val_div_int x 4 (by decide) (by decide)
theorem div8 (x : FB) : (x / FB.lit 8).val = x.val / F32.lit 8 := val_div_int x 8 (by decide) (by decide)
theorem div6C00 (x : FB) : (x / FB.lit 0x6C00).val = x.val / F32.lit 0x6C00 :=
  val_div_int x 0x6C00 (by decide) (by decide)
theorem div32767 (x : FB) : (x / FB.lit 32767).val = x.val / F32.lit 32767 :=
  val_div_int x 32767 (by decide) (by decide)

/-- C94: encoding a bit pattern is encoding its value. -/
theorem C94_encode (v : FB) (r : AnalogUIRange) (f : DataFormat) :
    FB.analogUiValueToU16 v r f = Ur20.analogUiValueToU16 v.val r f := by
  cases r <;> simp only [FB.analogUiValueToU16, Ur20.analogUiValueToU16, toWord, FB.toI16, f32ToWord,
    div20, div16, div10, div5, div4, div8, val_mul, val_sub, val_lit, val_factor]

/-- C94: values that are equal in Rust, among them the two zeros, are encoded alike, and so are all
NaNs. -/
theorem C94_equal (v w : FB) (r : AnalogUIRange) (f : DataFormat)
    (h : FB.eq v w = true ∨ v.val = .nan ∧ w.val = .nan) :
    FB.analogUiValueToU16 v r f = FB.analogUiValueToU16 w r f := by
  rw [C94_encode, C94_encode]
  rcases h with h | ⟨h1, h2⟩
  · rw [(of_decide_eq_true h).2]
  · rw [h1, h2]

/-- C94: decoding to a bit pattern gives a pattern of the decoded value. -/
theorem C94_decode (w : Word) (f : DataFormat) :
    (∀ r, (FB.u16ToAnalogUiValue w r f).map FB.val = Ur20.u16ToAnalogUiValue w r f) ∧
    (∀ r, (FB.u16ToRtdValue w r).map FB.val = Ur20.u16ToRtdValue w r) ∧
    (∀ r, (FB.u16ToThermalValue w r).map FB.val = Ur20.u16ToThermalValue w r) ∧
    (∀ r, decimalOrDisabled ((FB.hdValue w r f).map FB.val) = AiI.value w r f) := by
  refine ⟨fun r => ?_, fun r => ?_, fun r => ?_, fun r => ?_⟩
  · cases r <;> simp only [FB.u16ToAnalogUiValue, Ur20.u16ToAnalogUiValue, Option.map_some,
      Option.map_none, val_add, val_mul, val_div_factor, val_lit, val_ofWord]
  · cases r <;> simp only [FB.u16ToRtdValue, Ur20.u16ToRtdValue, FB.rtdResistance,
      Ur20.rtdResistance, Option.map_some, Option.map_none, val_mul, div10, div6C00, val_lit,
      val_ofWord]
  · cases r <;> simp only [FB.u16ToThermalValue, Ur20.u16ToThermalValue, Option.map_some,
      Option.map_none, val_mul, div32767, val_lit, val_ofWord] <;>
      (split <;> simp only [Option.map_some, Option.map_none, val_mul, val_lit, val_ofWord])
  · cases r <;> simp only [FB.hdValue, AiI.value, Option.map_some, Option.map_none, val_add,
      val_mul, val_div_factor, val_lit, val_ofWord, decimalOrDisabled]

/-- C94: a decoded number is finite and not a negative zero. -/
theorem C94_proper (w : Word) (f : DataFormat) :
    (∀ r x, FB.u16ToAnalogUiValue w r f = some x → Proper x) ∧
    (∀ r x, FB.u16ToRtdValue w r = some x → Proper x) ∧
    (∀ r x, FB.u16ToThermalValue w r = some x → Proper x) ∧
    (∀ r x, FB.hdValue w r f = some x → Proper x) := by
  have hw := ofWord_mid w
  have hf := factor_const f
  have c : ∀ (n : ℤ), 1 ≤ n → n ≤ 32768 → Const (FB.lit (n : ℚ)) 15 0 := const_int
  have scale : ∀ (n : ℤ), 1 ≤ n → n ≤ 32768 → Mid (ofWord w * FB.lit (n : ℚ) / factor f) 18 30 :=
    fun n h1 h2 => (hw.mul (c n h1 h2) (by norm_num) (by norm_num)).div hf (by norm_num) (by norm_num)
  have off : ∀ (n o : ℤ), 1 ≤ n → n ≤ 32768 → 1 ≤ o → o ≤ 32768 →
      Proper (ofWord w * FB.lit (n : ℚ) / factor f + FB.lit (o : ℚ)) :=
    fun n o h1 h2 h3 h4 => (scale n h1 h2).add_proper (c o h3 h4) (by norm_num) (by norm_num)
  have res : ∀ n : ℤ, 1 ≤ n → n ≤ 32768 → Proper (FB.rtdResistance (n : ℚ) w) := by
    intro n h1 h2
    rw [FB.rtdResistance, mul_comm']
    exact (((ofNat_mid w).mul (c n h1 h2) (by norm_num) (by norm_num)).div
      (c 0x6C00 (by norm_num) (by norm_num)) (by norm_num) (by norm_num)).proper
  have volts : ∀ q b : ℚ, F32.lit q = .fin b → 1 / 2 ^ 6 ≤ b → b ≤ 1 →
      Proper (FB.lit q * ofWord w / FB.lit 32767) := by
    intro q b h1 h2 h3
    rw [mul_comm']
    exact ((hw.mul (const_of h1 h2 h3) (by norm_num) (by norm_num)).div
      (c 32767 (by norm_num) (by norm_num)) (by norm_num) (by norm_num)).proper
  have ten : Proper (ofWord w / FB.lit 10) :=
    (hw.div (c 10 (by norm_num) (by norm_num)) (by norm_num) (by norm_num)).proper
  have tenth : Proper (ofWord w * FB.lit (1 / 10)) :=
    (hw.mul (const_of (b := 13421773 / 134217728) (by decide +kernel) (by norm_num) (by norm_num))
      (by norm_num) (by norm_num)).proper
  refine ⟨fun r x h => ?_, fun r x h => ?_, fun r x h => ?_, fun r x h => ?_⟩
  · cases r <;> simp only [FB.u16ToAnalogUiValue, Option.some.injEq, reduceCtorEq] at h <;> subst h
    · exact (scale 20 (by decide) (by decide)).proper
    · exact off 16 4 (by decide) (by decide) (by decide) (by decide)
    · exact (scale 10 (by decide) (by decide)).proper
    · exact (scale 10 (by decide) (by decide)).proper
    · exact (scale 5 (by decide) (by decide)).proper
    · exact (scale 5 (by decide) (by decide)).proper
    · exact off 4 1 (by decide) (by decide) (by decide) (by decide)
    · exact off 8 2 (by decide) (by decide) (by decide) (by decide)
  · cases r <;> simp only [FB.u16ToRtdValue, Option.some.injEq, reduceCtorEq] at h <;> subst h <;>
      first
      | exact ten
      | exact res 40 (by decide) (by decide)
      | exact res 80 (by decide) (by decide)
      | exact res 150 (by decide) (by decide)
      | exact res 300 (by decide) (by decide)
      | exact res 500 (by decide) (by decide)
      | exact res 1000 (by decide) (by decide)
      | exact res 2000 (by decide) (by decide)
      | exact res 4000 (by decide) (by decide)
  · cases r <;> simp only [FB.u16ToThermalValue, Option.some.injEq, reduceCtorEq] at h <;>
      first
      | (split at h <;> first | cases h; done | (cases h; exact tenth))
      | (subst h; exact volts _ (1 / 64) (by decide +kernel) (by norm_num) (by norm_num))
      | (subst h; exact volts _ (1 / 32) (by decide +kernel) (by norm_num) (by norm_num))
      | (subst h; exact volts _ (1 / 16) (by decide +kernel) (by norm_num) (by norm_num))
      | (subst h; exact volts _ (1 / 8) (by decide +kernel) (by norm_num) (by norm_num))
      | (subst h; exact volts _ (1 / 4) (by decide +kernel) (by norm_num) (by norm_num))
      | (subst h; exact volts _ (1 / 2) (by decide +kernel) (by norm_num) (by norm_num))
      | (subst h; exact volts _ 1 (by decide +kernel) (by norm_num) (by norm_num))
      | (subst h
         rw [mul_comm']
         exact ((hw.mul (c 2 (by norm_num) (by norm_num)) (by norm_num) (by norm_num)).div
           (c 32767 (by norm_num) (by norm_num)) (by norm_num) (by norm_num)).proper)
  · cases r <;> simp only [FB.hdValue, Option.some.injEq, reduceCtorEq] at h <;> subst h
    · exact (scale 20 (by decide) (by decide)).proper
    · exact off 16 4 (by decide) (by decide) (by decide) (by decide)

/-! ### Frequencies -/

/-- Not a negative number. -/
def F32.NotNeg : F32 → Prop
  | .fin q => 0 ≤ q
  | .inf s => s = false
  | .nan => True

theorem FB.notNeg_of_sign {x : FB} (h : x.sign = false) : x.val.NotNeg := by
  rw [val_eq]
  split
  · split
    · exact h
    · trivial
  · rw [h]
    exact mag_nonneg _ _

theorem FB.sign_of {x : F32} (h : x.IsSingle) (hn : x.NotNeg) : (of false x).sign = false := by
  cases x with
  | nan => decide
  | inf s => rw [show s = false from hn]; decide
  | fin q =>
    by_cases h0 : q = 0
    · subst h0; exact (of_zero false).1
    · rw [(of_fin h0 h.1 h.2 false).1]
      exact decide_eq_false (not_lt.2 hn)

theorem round_notNeg {q : ℚ} (h : 0 ≤ q) : (F32.round q).NotNeg := by
  unfold F32.round
  simp only
  split
  · simpa [F32.NotNeg] using h
  · exact roundQ_nonneg h

theorem add_notNeg {x y : F32} (hx : x.NotNeg) (hy : y.NotNeg) : (x + y).NotNeg := by
  show (F32.add x y).NotNeg
  match x, y, hx, hy with
  | .nan, _, _, _ => trivial
  | .inf _, .nan, _, _ => trivial
  | .fin _, .nan, _, _ => trivial
  | .inf a, .inf b, ha, hb =>
    have ha : a = false := ha
    have hb : b = false := hb
    subst ha hb
    exact rfl
  | .inf a, .fin _, ha, _ => exact ha
  | .fin _, .inf b, _, hb => exact hb
  | .fin p, .fin q, hp, hq => exact round_notNeg (add_nonneg hp hq)

theorem div_notNeg {x y : F32} (hx : x.NotNeg) (hy : y.NotNeg) : (x / y).NotNeg := by
  show (F32.div x y).NotNeg
  match x, y, hx, hy with
  | .nan, _, _, _ => trivial
  | .inf _, .nan, _, _ => trivial
  | .fin _, .nan, _, _ => trivial
  | .inf a, .inf b, _, _ => trivial
  | .inf a, .fin q, ha, hq =>
    have ha : a = false := ha
    subst ha
    show (false != decide (q < 0)) = false
    rw [decide_eq_false (not_lt.2 hq)]
    rfl
  | .fin _, .inf b, _, _ => exact le_refl (0 : ℚ)
  | .fin p, .fin q, hp, hq =>
    simp only [F32.div]
    by_cases h : q = 0
    · rw [if_pos h]
      by_cases h' : p = 0
      · rw [if_pos h']; trivial
      · rw [if_neg h']; exact decide_eq_false (not_lt.2 hp)
    · rw [if_neg h]
      exact round_notNeg (div_nonneg hp hq)

theorem FB.sign_lit {q : ℚ} (h : 0 ≤ q) : (FB.lit q).sign = false :=
  sign_of (round_isSingle q) (round_notNeg h)

theorem FB.sign_add {x y : FB} (hx : x.sign = false) (hy : y.sign = false) :
    (x + y).sign = false := by
  show (FB.add x y).sign = false
  rw [FB.add, hx, hy]
  refine sign_of (add_isSingle x.val_isSingle y.val_isSingle) ?_
  exact add_notNeg (notNeg_of_sign hx) (notNeg_of_sign hy)

theorem FB.sign_div {x y : FB} (hx : x.sign = false) (hy : y.sign = false) :
    (x / y).sign = false := by
  show (FB.div x y).sign = false
  rw [FB.div, hx, hy]
  split
  · split
    · decide
    · decide
  · refine sign_of (div_isSingle _ _) ?_
    exact div_notNeg (notNeg_of_sign hx) (notNeg_of_sign hy)

/-- C94: the computed frequency is a pattern of the frequency of C49, and never negative: not even
with a duration of zero. -/
theorem C94_hertz (v : FcntIn) :
    (FB.hertz v).map FB.val = Fcnt.hertz v ∧ ∀ x, FB.hertz v = some x → x.sign = false := by
  unfold FB.hertz Fcnt.hertz
  cases v.duration with
  | none => exact ⟨rfl, fun x h => by cases h⟩
  | some d =>
    have e9 : (FB.lit 1000000000).val ≠ .fin 0 := by
      rw [val_lit]; decide +kernel
    have s1 := FB.sign_lit (q := ((d / 1000000000 : ℕ) : ℚ)) (by positivity)
    have s2 := FB.sign_lit (q := ((d % 1000000000 : ℕ) : ℚ)) (by positivity)
    have s3 := FB.sign_lit (q := 1000000000) (by norm_num)
    have s4 := FB.sign_add s1 (FB.sign_div s2 s3)
    refine ⟨?_, ?_⟩
    · simp only [Option.map_some, Option.some.injEq]
      rw [val_div _ _ (fun _ => s4), val_add, val_div _ _ (fun h => absurd h e9), val_lit, val_lit,
        val_lit, val_lit]
    · intro x h
      simp only [Option.map_some, Option.some.injEq] at h
      subst h
      exact FB.sign_div (FB.sign_lit (by positivity)) s4

/-- C94: bit patterns and values are the same thing except for the sign of a zero and the choice of a
NaN: every single precision number is the value of a pattern, and only of one. -/
theorem C94_patterns :
    (∀ q, Spec.Single q → ∃ x : FB, x.val = .fin q) ∧ (∀ s, ∃ x : FB, x.val = .inf s) ∧
    (∃ x : FB, x.val = .nan) ∧
    (∀ (x : FB) q, x.val = .fin q → Spec.Single q) ∧
    (∀ x y : FB, x.val = y.val → x.val ≠ .nan → x.val ≠ .fin 0 → x = y) ∧
    (∀ x : FB, x.val = .fin 0 ↔ x.bits = 0#32 ∨ x.bits = 0x80000000#32) := by
  refine ⟨fun q h => ?_, fun s => ⟨of false (.inf s), val_of _ trivial⟩,
    ⟨of false .nan, val_of _ trivial⟩, fun x q h => ?_, fun x y h hn h0 => ?_, fun x => ⟨fun h => ?_, ?_⟩⟩
  · refine ⟨of false (.fin q), val_of _ ⟨representable_of_single h, ?_⟩⟩
    obtain ⟨m, e, h1, h2, h3, rfl⟩ := h
    rw [abs_mul, abs_of_pos (two_zpow_pos e)]
    have hm : |(m : ℚ)| < 2 ^ 24 := by exact_mod_cast h1
    calc |(m : ℚ)| * 2 ^ e < 2 ^ 24 * 2 ^ e := mul_lt_mul_of_pos_right hm (two_zpow_pos e)
      _ ≤ 2 ^ 24 * 2 ^ (104 : ℤ) := mul_le_mul_of_nonneg_left
          (zpow_le_zpow_right₀ (by norm_num) h3) (by norm_num)
      _ = 2 ^ 128 := by norm_num
  · have := x.val_isSingle
    rw [h] at this
    exact single_of_representable this.1 this.2
  · refine FB.ext h ?_ hn
    cases hx : x.val with
    | nan => exact absurd hx hn
    | inf s => rw [sign_inf hx, sign_inf (h ▸ hx)]
    | fin q =>
      have hq : q ≠ 0 := fun e => h0 (by rw [hx, e])
      rw [sign_fin hx hq, sign_fin (h ▸ hx) hq]
  · cases hs : x.sign with
    | false =>
      left
      have : x = of false (.fin 0) :=
        FB.ext (by rw [h, (of_zero false).2]) (by rw [hs, (of_zero false).1]) (by rw [h]; simp)
      rw [this]; decide +kernel
    | true =>
      right
      have : x = of true (.fin 0) :=
        FB.ext (by rw [h, (of_zero true).2]) (by rw [hs, (of_zero true).1]) (by rw [h]; simp)
      rw [this]; decide +kernel
  · rintro (h | h)
    · have hx : x = ⟨0#32⟩ := by cases x; simpa using h
      subst hx; decide +kernel
    · have hx : x = ⟨0x80000000#32⟩ := by cases x; simpa using h
      subst hx; decide +kernel

/-- Twelve milliampere, stored as `0x41400000`. -/
example : FB.u16ToAnalogUiValue 13824#16 .mA4To20 .S7 = some ⟨0x41400000#32⟩ := by decide +kernel

example : FB.analogUiValueToU16 ⟨0x41400000#32⟩ .mA4To20 .S7 = 13824#16 := by decide +kernel

/-- The two zeros are equal and differ in their bits; both are encoded as 0. -/
example : FB.eq ⟨0#32⟩ ⟨0x80000000#32⟩ = true ∧
    FB.analogUiValueToU16 ⟨0x80000000#32⟩ .VMinus10To10 .S7 = 0#16 := by decide +kernel

/-- -10 V and the reading of a temperature. -/
example : FB.u16ToAnalogUiValue 0x9400#16 .VMinus10To10 .S7 = some ⟨0xC1200000#32⟩ ∧
    FB.u16ToRtdValue 215#16 .PT100 = some ⟨0x41AC0000#32⟩ := by decide +kernel

end Ur20
