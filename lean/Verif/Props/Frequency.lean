import Verif.Props.Hertz
import Verif.Props.Counter
import Verif.Spec.Analog

/-!
# C121: frequencies compare as counts and durations do
-/

namespace Ur20

open F32 Spec

/-- The divisor of `hertz`, for durations below `2 ^ 24` seconds. -/
def secondsQ (d : ℕ) : ℚ :=
  roundQ (((d / 1000000000 : ℕ) : ℚ) + roundQ (roundQ ((d % 1000000000 : ℕ) : ℚ) / 1000000000))

theorem roundQ_natle {n : ℕ} (h : n ≤ 2 ^ 24) : roundQ (n : ℚ) = n := roundQ_of_repr (repr_nat n h)

theorem fraction_le (b : ℕ) (hb : b ≤ 1000000000) :
    0 ≤ roundQ (roundQ (b : ℚ) / 1000000000) ∧ roundQ (roundQ (b : ℚ) / 1000000000) ≤ 1 := by
  have h9 : roundQ (1000000000 : ℚ) = 1000000000 := by decide +kernel
  have h1 : roundQ (1 : ℚ) = 1 := by decide +kernel
  have hb' : (b : ℚ) ≤ 1000000000 := by exact_mod_cast hb
  have h := roundQ_mono hb'
  rw [h9] at h
  have h0 : 0 ≤ roundQ (b : ℚ) := roundQ_nonneg (by positivity)
  refine ⟨roundQ_nonneg (by positivity), ?_⟩
  rw [← h1]
  exact roundQ_mono (by linarith)

theorem seconds_eq (d : ℕ) (hd : d < 2 ^ 24 * 1000000000) :
    F32.lit ((d / 1000000000 : ℕ) : ℚ) + F32.lit ((d % 1000000000 : ℕ) : ℚ) / F32.lit 1000000000 =
      .fin (secondsQ d) := by
  have h1 := Nat.div_add_mod d 1000000000
  have h2 : d % 1000000000 < 1000000000 := Nat.mod_lt _ (by norm_num)
  have h3 : d / 1000000000 < 2 ^ 24 := by omega
  have hs : F32.lit 1000000000 = .fin 1000000000 := by decide +kernel
  unfold secondsQ
  generalize d / 1000000000 = a at *
  generalize d % 1000000000 = b at *
  obtain ⟨f0, f1⟩ := fraction_le b h2.le
  have ha : (a : ℚ) ≤ 2 ^ 24 := by exact_mod_cast h3.le
  have a0 : (0 : ℚ) ≤ a := by positivity
  have b0 : 0 ≤ roundQ (b : ℚ) := roundQ_nonneg (by positivity)
  have b1 : roundQ (b : ℚ) ≤ 2 ^ 30 := by
    have := roundQ_small (q := (b : ℚ)) (k := 30) (by
      rw [abs_of_nonneg (by positivity)]
      have : b ≤ 2 ^ 30 := by norm_num; omega
      exact_mod_cast this)
    rwa [abs_of_nonneg b0] at this
  rw [lit_nat a (by omega), lit_nat b (by omega), hs, fin_div _ _ (by norm_num),
    round_small (by rw [abs_of_nonneg (by positivity)]; linarith), fin_add, roundQ_natle h3.le]
  apply round_small
  rw [abs_of_nonneg (by positivity)]
  linarith

theorem secondsQ_mono {d e : ℕ} (h : d ≤ e) : secondsQ d ≤ secondsQ e := by
  unfold secondsQ
  apply roundQ_mono
  have hm : d % 1000000000 < 1000000000 := Nat.mod_lt _ (by norm_num)
  have hn : e % 1000000000 < 1000000000 := Nat.mod_lt _ (by norm_num)
  have hde := Nat.div_le_div_right (c := 1000000000) h
  rcases hde.lt_or_eq with hlt | heq
  · have h1 : (((d / 1000000000 : ℕ) : ℚ) + 1) ≤ ((e / 1000000000 : ℕ) : ℚ) := by exact_mod_cast hlt
    have h2 := (fraction_le _ hm.le).2
    have h3 := (fraction_le _ hn.le).1
    linarith
  · rw [heq]
    have h1 : d % 1000000000 ≤ e % 1000000000 := by omega
    have h2 : ((d % 1000000000 : ℕ) : ℚ) ≤ ((e % 1000000000 : ℕ) : ℚ) := by exact_mod_cast h1
    have h3 := roundQ_mono h2
    have h4 := roundQ_mono (p := roundQ ((d % 1000000000 : ℕ) : ℚ) / 1000000000)
      (q := roundQ ((e % 1000000000 : ℕ) : ℚ) / 1000000000) (by linarith)
    linarith

theorem secondsQ_pos {d : ℕ} (h : 0 < d) (hd : d < 2 ^ 24 * 1000000000) : 0 < secondsQ d := by
  obtain ⟨s, h1, h2, -⟩ := seconds_near d h (by omega)
  rw [seconds_eq d hd] at h1
  cases h1
  have : (0 : ℚ) < d := by exact_mod_cast h
  exact lt_of_lt_of_le (by positivity) h2

theorem hertz_eq (v : FcntIn) (d : ℕ) (h : v.duration = some d) (h0 : 0 < d)
    (hd : d < 2 ^ 24 * 1000000000) :
    Fcnt.hertz v = some (.fin (roundQ (roundQ (v.count.toNat : ℚ) / secondsQ d))) := by
  obtain ⟨q, h1, -⟩ := C49_accuracy v d h h0 (by omega)
  have h2 : Fcnt.hertz v = some (F32.round (roundQ (v.count.toNat : ℚ) / secondsQ d)) := by
    unfold Fcnt.hertz
    rw [h]
    simp only [Option.map_some]
    rw [seconds_eq d hd, lit_nat _ (by have := v.count.isLt; omega),
      fin_div _ _ (secondsQ_pos h0 hd).ne']
  rw [h2] at h1 ⊢
  rcases round_cases (roundQ (v.count.toNat : ℚ) / secondsQ d) with ⟨-, e⟩ | ⟨-, e⟩ | ⟨-, e⟩
  · rw [e]
  · rw [e] at h1; cases h1
  · rw [e] at h1; cases h1

/-- C121: with a higher or equal count in a shorter or equal time the frequency is higher or equal.
(The durations a module reports are below 17 seconds.) -/
theorem C121_compare (v w : FcntIn) (d e : ℕ) (hv : v.duration = some d) (hw : w.duration = some e)
    (h0 : 0 < e) (hd : d < 2 ^ 24 * 1000000000) (hc : v.count.toNat ≤ w.count.toNat) (hde : e ≤ d) :
    ∃ p q, Fcnt.hertz v = some (.fin p) ∧ Fcnt.hertz w = some (.fin q) ∧ 0 ≤ p ∧ p ≤ q := by
  have he : e < 2 ^ 24 * 1000000000 := by omega
  refine ⟨_, _, hertz_eq v d hv (by omega) hd, hertz_eq w e hw h0 he, ?_, ?_⟩
  · apply roundQ_nonneg
    have := (secondsQ_pos (by omega : 0 < d) hd).le
    have : 0 ≤ roundQ (v.count.toNat : ℚ) := roundQ_nonneg (by positivity)
    positivity
  · apply roundQ_mono
    have hc' : (v.count.toNat : ℚ) ≤ w.count.toNat := by exact_mod_cast hc
    exact div_le_div₀ (roundQ_nonneg (by positivity)) (roundQ_mono hc') (secondsQ_pos h0 he)
      (secondsQ_mono hde)

/-- C121: the frequency is zero exactly if nothing was counted. -/
theorem C121_zero (v : FcntIn) (d : ℕ) (h : v.duration = some d) (h0 : 0 < d)
    (hd : d < 2 ^ 64 * 1000000000) : Fcnt.hertz v = some (.fin 0) ↔ v.count = 0#32 := by
  obtain ⟨q, h1, h2⟩ := C49_accuracy v d h h0 hd
  have hd' : (0 : ℚ) < d := by exact_mod_cast h0
  rw [h1]
  constructor
  · intro h3
    simp only [Option.some.injEq, F32.fin.injEq] at h3
    subst h3
    rw [zero_sub, abs_neg, abs_of_nonneg (by positivity)] at h2
    have h4 : (v.count.toNat : ℚ) / (d / 10 ^ 9) ≤ 0 := by linarith
    have h5 : (0 : ℚ) < d / 10 ^ 9 := by positivity
    rw [div_le_iff₀ h5, zero_mul] at h4
    have : v.count.toNat = 0 := by
      have : v.count.toNat ≤ 0 := by exact_mod_cast h4
      omega
    exact BitVec.eq_of_toNat_eq (by simpa using this)
  · intro h3
    rw [h3] at h2
    simp only [BitVec.toNat_ofNat, Nat.zero_mod, Nat.cast_zero, zero_div, sub_zero] at h2
    have := abs_nonpos_iff.1 h2
    rw [this]

/-- C121: for up to `2 ^ 24` pulses in a whole number of seconds the result is the single precision
number next to the frequency. -/
theorem C121_nearest (v : FcntIn) (s : ℕ) (h : v.duration = some (s * 1000000000)) (h0 : 0 < s)
    (hs : s < 2 ^ 24) (hc : v.count.toNat ≤ 2 ^ 24) :
    ∃ q, Fcnt.hertz v = some (.fin q) ∧ IsNearest q ((v.count.toNat : ℚ) / s) := by
  have e : secondsQ (s * 1000000000) = s := by
    unfold secondsQ
    rw [Nat.mul_div_cancel _ (by norm_num), Nat.mul_mod_left]
    simp only [Nat.cast_zero, roundQ_zero, zero_div, add_zero]
    exact roundQ_natle hs.le
  have h1 := hertz_eq v _ h (by omega) (by omega)
  rw [e, roundQ_natle hc] at h1
  refine ⟨_, h1, nearest_roundQ ?_⟩
  have hs1 : (1 : ℚ) ≤ s := by exact_mod_cast h0
  have hc1 : (v.count.toNat : ℚ) ≤ 2 ^ 24 := by exact_mod_cast hc
  rw [abs_of_nonneg (by positivity), div_le_iff₀ (by linarith)]
  linarith

/-- C121: every duration a module reports is below 17 seconds. -/
theorem C121_durations (m : Fcnt.Mod) (data : List Word) (vs : List ChannelValue) (v : FcntIn)
    (d : ℕ) (h : (Module.fcnt m).processInputData data = .ok vs) (hv : .fcntIn v ∈ vs)
    (hd : v.duration = some d) : d < 17 * 1000000000 := by
  have h1 := h
  simp only [Module.processInputData, Fcnt.Mod.processInputData] at h1
  split at h1
  · cases h1
  rename_i hlen
  split at h1
  · cases h1
  rename_i hm
  rw [not_not] at hlen hm
  clear h1
  match data, hlen with
  | [p0h, p0l, c0h, c0l, p1h, p1l, c1h, c1l, s0, s1], _ =>
    obtain ⟨v0, v1, e, -, -, -, -, d0, d1⟩ := (C46_decode m hm _).2 _ _ _ _ _ _ _ _ _ _ rfl
    rw [h] at e
    cases e
    simp only [List.mem_cons, List.not_mem_nil, or_false, ChannelValue.fcntIn.injEq] at hv
    rcases hv with rfl | rfl
    · rw [d0] at hd
      split at hd
      · cases hd
      · cases hd; omega
    · rw [d1] at hd
      split at hd
      · cases hd
      · cases hd; omega

/-- More pulses in a shorter time, and the two frequencies. -/
example : Fcnt.hertz ⟨some 3000000000, 1000#32, true⟩ = some (.fin (10922667 / 32768)) ∧
    Fcnt.hertz ⟨some 2999999125, 1001#32, true⟩ = some (.fin (10933593 / 32768)) := by decide +kernel

end Ur20
