import Verif.Lemmas.Analog

/-! Analog modules channel by channel. -/

namespace Ur20

open Spec F32

theorem mapRes_range {α : Type} {g : Nat → Res α} {n : Nat} {as : List α} (hl : as.length = n)
    (h : ∀ i a, as[i]? = some a → g i = .ok a) : mapRes g (List.range n) = .ok as := by
  rw [mapRes_eq_ok, List.forall₂_iff_get]
  refine ⟨by simp [hl], ?_⟩
  intro i h1 h2
  simp only [List.get_eq_getElem, List.getElem_range]
  exact h i _ (List.getElem?_eq_getElem h2)

theorem mapRes_zipIdx {α β γ : Type} {F : α → β → Res γ} {ps : List β} (l : List α) (k : Nat)
    (hl : ps.length = k + l.length) :
    mapRes (fun (p : α × Nat) => (idx ps p.2).bind fun c => F p.1 c) (l.zipIdx k) =
      mapRes (fun p => F p.1 p.2) (l.zip (ps.drop k)) := by
  induction l generalizing k with
  | nil => rfl
  | cons a l ih =>
    simp only [List.length_cons] at hl
    have hk : k < ps.length := by omega
    rw [List.zipIdx_cons, List.drop_eq_getElem_cons hk, List.zip_cons_cons, mapRes_cons, mapRes_cons,
      ih (k + 1) (by omega)]
    simp only
    rw [idx_of_lt hk]
    rfl

/-- The value of a channel. -/
def channelValue (p : AnalogUIRange × DataFormat) (w : Word) : ChannelValue :=
  decimalOrDisabled (u16ToAnalogUiValue w p.1 p.2)

theorem aiI_value (w : Word) (r : AnalogIRange) (f : DataFormat) :
    AiI.value w r f = channelValue (currentRange r, f) w := by
  cases r <;> rfl

theorem analogInputs_decode {t : ModuleType} {par : List Word} {m : Module}
    (hc : Module.create t par = .ok m) {ps : List (AnalogUIRange × DataFormat)}
    (ha : analogInputs m = some ps) (ws : List Word) (hl : ws.length = ps.length) :
    m.processInputData ws = .ok (List.zipWith (fun w p => channelValue p w) ws ps) := by
  have hg := create_good hc
  have key : ∀ {C : Type} (cs : List C) (k : C → AnalogUIRange × DataFormat) (n : Nat),
      cs.length = n → ws.length = n →
      mapRes (fun i => do
        let w ← idx ws i
        let c ← idx cs i
        pure (channelValue (k c) w)) (List.range n) =
      .ok (List.zipWith (fun w p => channelValue p w) ws (cs.map k)) := by
    intro C cs k n h1 h2
    refine mapRes_range (by simp [h1, h2]) ?_
    intro i a hi
    rw [List.getElem?_zipWith_eq_some] at hi
    obtain ⟨w, p, e1, e2, rfl⟩ := hi
    rw [List.getElem?_map, Option.map_eq_some_iff] at e2
    obtain ⟨c, e2, rfl⟩ := e2
    rw [idx_eq_ok.2 e1, idx_eq_ok.2 e2]
    rfl
  cases m <;> simp only [analogInputs, Option.some.injEq, reduceCtorEq] at ha <;> subst ha <;>
    rw [List.length_map] at hl
  case aiDiag m =>
    cases t <;> simp only [IsCreated] at hg
    simp only [Module.processInputData, AiDiag.Mod.processInputData]
    rw [if_neg (by omega), if_neg (by omega)]
    exact key m.chParams (fun c => (c.measurementRange, c.dataFormat)) 4 hg (by omega)
  case ai m =>
    have hn : m.variant.moduleType.channelCount = 4 := by cases m.variant <;> rfl
    have h4 : m.chParams.length = 4 := by
      cases t <;> simp only [IsCreated] at hg <;> exact hg.2
    simp only [Module.processInputData, Ai.Mod.processInputData]
    rw [hn, if_neg (by omega), if_neg (by omega)]
    exact key m.chParams (fun c => (c.measurementRange, c.dataFormat)) 4 h4 (by omega)
  case aiI m =>
    cases t <;> simp only [IsCreated] at hg
    simp only [Module.processInputData, AiI.Mod.processInputData, aiI_value]
    rw [if_neg (by omega), if_neg (by omega)]
    exact key m.chParams (fun c => (currentRange c.measurementRange, c.dataFormat)) 8 hg (by omega)

theorem analogInputs_length {t : ModuleType} {par : List Word} {m : Module}
    (hc : Module.create t par = .ok m) {ps : List (AnalogUIRange × DataFormat)}
    (ha : analogInputs m = some ps) : m.inputByteCount = 2 * ps.length := by
  have hg := create_good hc
  cases m <;> simp only [analogInputs, Option.some.injEq, reduceCtorEq] at ha <;> subst ha <;>
    rw [List.length_map]
  case aiDiag m =>
    cases t <;> simp only [IsCreated] at hg
    rw [hg]; rfl
  case ai m =>
    have hn : m.variant.moduleType.channelCount = 4 := by cases m.variant <;> rfl
    have h4 : m.chParams.length = 4 := by
      cases t <;> simp only [IsCreated] at hg <;> exact hg.2
    rw [h4]
    simp only [Module.inputByteCount, Ai.Mod.inputByteCount, hn]
  case aiI m =>
    cases t <;> simp only [IsCreated] at hg
    rw [hg]; rfl

theorem analogOutputs_length {t : ModuleType} {par : List Word} {m : Module}
    (hc : Module.create t par = .ok m) {ps : List (AnalogUIRange × DataFormat)}
    (ha : analogOutputs m = some ps) : ps.length = 4 ∧ m.outputByteCount = 8 := by
  have hg := create_good hc
  cases m <;> simp only [analogOutputs, Option.some.injEq, reduceCtorEq] at ha <;> subst ha <;>
    rw [List.length_map]
  case ao m =>
    cases t <;> simp only [IsCreated] at hg
    exact ⟨hg, rfl⟩
  case aoDiag m =>
    cases t <;> simp only [IsCreated] at hg
    exact ⟨hg, rfl⟩

theorem zip_decode (ws : List Word) (ps : List (AnalogUIRange × DataFormat)) :
    mapRes (fun p : Word × (AnalogUIRange × DataFormat) => (.ok (channelValue p.2 p.1) : Res ChannelValue))
      (ws.zip ps) = .ok (List.zipWith (fun w p => channelValue p w) ws ps) := by
  rw [mapRes_pure]
  simp [List.zip, List.map_zipWith]

theorem analogOutputs_decode {t : ModuleType} {par : List Word} {m : Module}
    (hc : Module.create t par = .ok m) {ps : List (AnalogUIRange × DataFormat)}
    (ha : analogOutputs m = some ps) (ws : List Word) (hl : ws.length = 4) :
    m.processOutputData ws = .ok (List.zipWith (fun w p => channelValue p w) ws ps) := by
  obtain ⟨h4, -⟩ := analogOutputs_length hc ha
  have key : ∀ {C : Type} (cs : List C) (k : C → AnalogUIRange × DataFormat), cs.length = 4 →
      mapRes (fun (p : Word × Nat) => do
        let c ← idx cs p.2
        pure (channelValue (k c) p.1)) ws.zipIdx =
      .ok (List.zipWith (fun w p => channelValue p w) ws (cs.map k)) := by
    intro C cs k h
    have := mapRes_zipIdx (F := fun w c => (.ok (channelValue (k c) w) : Res ChannelValue)) (ps := cs)
      ws 0 (by omega)
    simp only [Res.bind_eq, Res.pure_eq, List.drop_zero] at this ⊢
    rw [this, mapRes_pure]
    simp [List.zip, List.map_zipWith, List.zipWith_map_right]
  cases m <;> simp only [analogOutputs, Option.some.injEq, reduceCtorEq] at ha <;> subst ha <;>
    rw [List.length_map] at h4
  case ao m =>
    simp only [Module.processOutputData, Ao.Mod.processOutputData]
    rw [if_neg (by omega)]
    exact key m.chParams (fun c => (c.outputRange, c.dataFormat)) h4
  case aoDiag m =>
    simp only [Module.processOutputData, AoDiag.Mod.processOutputData]
    rw [if_neg (by omega)]
    exact key m.chParams (fun c => (c.outputRange, c.dataFormat)) h4

theorem analogOutputs_encode {t : ModuleType} {par : List Word} {m : Module}
    (hc : Module.create t par = .ok m) {ps : List (AnalogUIRange × DataFormat)}
    (ha : analogOutputs m = some ps) (vs : List ChannelValue) (hl : vs.length = 4) :
    m.processOutputValues vs = mapRes (fun p => valueToU16 p.1 p.2.1 p.2.2) (vs.zip ps) := by
  obtain ⟨h4, -⟩ := analogOutputs_length hc ha
  have key : ∀ {C : Type} (cs : List C) (k : C → AnalogUIRange × DataFormat), cs.length = 4 →
      mapRes (fun (p : ChannelValue × Nat) => do
        let c ← idx cs p.2
        valueToU16 p.1 (k c).1 (k c).2) vs.zipIdx =
      mapRes (fun p => valueToU16 p.1 p.2.1 p.2.2) (vs.zip (cs.map k)) := by
    intro C cs k h
    have := mapRes_zipIdx (F := fun v c => valueToU16 v (k c).1 (k c).2) (ps := cs)
      vs 0 (by omega)
    simp only [Res.bind_eq, List.drop_zero] at this ⊢
    rw [this, List.zip_map_right, mapRes_map]
    rfl
  cases m <;> simp only [analogOutputs, Option.some.injEq, reduceCtorEq] at ha <;> subst ha <;>
    rw [List.length_map] at h4
  case ao m =>
    simp only [Module.processOutputValues, Ao.Mod.processOutputValues]
    rw [if_neg (by omega), if_neg (by omega)]
    exact key m.chParams (fun c => (c.outputRange, c.dataFormat)) h4
  case aoDiag m =>
    simp only [Module.processOutputValues, AoDiag.Mod.processOutputValues]
    rw [if_neg (by omega), if_neg (by omega)]
    exact key m.chParams (fun c => (c.outputRange, c.dataFormat)) h4

theorem analogOutputs_encode_length {t : ModuleType} {par : List Word} {m : Module}
    (hc : Module.create t par = .ok m) {ps : List (AnalogUIRange × DataFormat)}
    (ha : analogOutputs m = some ps) (vs : List ChannelValue) (hl : vs.length ≠ 4) :
    m.processOutputValues vs = .err .channelValue := by
  cases m <;> simp only [analogOutputs, reduceCtorEq] at ha
  · simp only [Module.processOutputValues, Ao.Mod.processOutputValues]
    rw [if_pos hl]
  · simp only [Module.processOutputValues, AoDiag.Mod.processOutputValues]
    rw [if_pos hl]

/-! ### Accuracy of decoding -/

/-- Error of rounding any number. -/
theorem roundQ_any (q : ℚ) : |roundQ q - q| ≤ |q| / 2 ^ 24 + 1 / 2 ^ 150 := by
  by_cases h : q = 0 ∨ (2 : ℚ) ^ (-126 : ℤ) ≤ |q|
  · refine (roundQ_rel q h).trans ?_
    have : (2 : ℚ) ^ (-24 : ℤ) * |q| = |q| / 2 ^ 24 := by
      rw [zpow_neg, div_eq_mul_inv, mul_comm]; norm_cast
    rw [this]
    have : (0 : ℚ) ≤ 1 / 2 ^ 150 := by positivity
    linarith
  · rw [not_or] at h
    have h2 := roundQ_error_ulp q h.1
    have h3 : ilog2 q < -126 := by
      have := lt_of_le_of_lt (ilog2_le q h.1).1 (not_le.mp h.2)
      exact (zpow_lt_zpow_iff_right₀ (by norm_num)).mp this
    have h4 : ulpExp q = -149 := by unfold ulpExp; omega
    rw [h4] at h2
    have h5 : (2 : ℚ) ^ ((-149 : ℤ) - 1) = 1 / 2 ^ 150 := by
      norm_num
    rw [h5] at h2
    have : (0 : ℚ) ≤ |q| / 2 ^ 24 := by positivity
    linarith

theorem scaled_rel {s : ℚ × ℚ} (hs : s = (0, 20) ∨ s = (4, 20) ∨ s = (0, 10) ∨ s = (0, 5) ∨
    s = (1, 5) ∨ s = (2, 10)) (f : DataFormat) (x : ℤ) :
    |roundQ (x * (s.2 - s.1) / fullScale f) - x * (s.2 - s.1) / fullScale f| ≤
      |(x : ℚ) * (s.2 - s.1) / fullScale f| / 2 ^ 24 := by
  obtain ⟨-, -, h3, h4, h5, h6⟩ := span_lit hs
  obtain ⟨h7, h8⟩ := fullScale_bounds f
  have e : ∀ y : ℚ, (2 : ℚ) ^ (-24 : ℤ) * |y| = |y| / 2 ^ 24 := fun y => by
    rw [zpow_neg, div_eq_mul_inv, mul_comm]; norm_cast
  rw [← e]
  apply roundQ_rel
  by_cases hx : x = 0
  · left; rw [hx]; simp
  · right
    have h1 : (1 : ℚ) ≤ |(x : ℚ)| := by
      have := Int.one_le_abs hx
      exact_mod_cast this
    rw [abs_div, abs_mul, abs_of_pos (by linarith : 0 < s.2 - s.1),
      abs_of_pos (by linarith : 0 < fullScale f)]
    have h9 : (4 : ℚ) / 27648 ≤ |(x : ℚ)| * (s.2 - s.1) / fullScale f := by
      apply div_le_div₀ (by positivity) _ (by linarith) h8
      have := mul_le_mul h1 h3 (by norm_num) (by positivity)
      linarith
    refine le_trans ?_ h9
    norm_num

theorem reading (p : AnalogUIRange × DataFormat) (w : Word) :
    AnalogReading p w (channelValue p w) := by
  obtain ⟨r, f⟩ := p
  unfold AnalogReading channelValue
  simp only
  rw [decode_eq]
  cases hs : uiScale r with
  | none => rfl
  | some s =>
    simp only [Option.map_some, decimalOrDisabled]
    have hs' := scale_cases hs
    obtain ⟨-, -, h3, h4, h5, h6⟩ := span_lit hs'
    obtain ⟨h7, h8⟩ := fullScale_bounds f
    have hx : |w.toInt| ≤ 32768 := by exact_mod_cast word_abs w
    obtain ⟨n1, n2⟩ := decodedQ_near hs' f w.toInt hx
    refine ⟨decodedQ s f w.toInt, rfl, single_of_representable (roundQ_repr _)
      (lt_of_le_of_lt n2 (by norm_num)), ?_, ?_, ?_⟩
    · rintro rfl
      have hsn : ∃ n : ℤ, s.2 - s.1 = n ∧ |n| ≤ 20 := by
        rcases hs' with h | h | h | h | h | h <;> subst h
        · exact ⟨20, by norm_num, by norm_num⟩
        · exact ⟨16, by norm_num, by norm_num⟩
        · exact ⟨10, by norm_num, by norm_num⟩
        · exact ⟨5, by norm_num, by norm_num⟩
        · exact ⟨4, by norm_num, by norm_num⟩
        · exact ⟨8, by norm_num, by norm_num⟩
      obtain ⟨n, hn, hnb⟩ := hsn
      refine (round_trip_exact hs .S5 w (w.toInt * n) ?_ ?_).1
      · rw [abs_mul]
        have := mul_le_mul hx hnb (abs_nonneg n) (by norm_num)
        linarith
      · rw [hn]
        simp only [fullScale]
        push_cast
        norm_num
    · intro h0
      rw [physical_eq, h0, add_zero]
      have : decodedQ s f w.toInt = roundQ (w.toInt * (s.2 - s.1) / fullScale f) := by
        unfold decodedQ
        rw [h0, add_zero, roundQ_of_repr (roundQ_repr _)]
      rw [this, h0]
      apply nearest_roundQ
      have := scaled_le hs' f ((word_abs w).trans (by norm_num))
      rw [h0] at this
      exact this.trans (by norm_num)
    · have hb := scaled_le hs' f ((word_abs w).trans (by norm_num))
      have hr := scaled_rel hs' f w.toInt
      rw [physical_eq]
      unfold decodedQ
      generalize (w.toInt : ℚ) * (s.2 - s.1) / fullScale f = y at *
      have hab : y + s.1 - s.1 = y := by ring
      rw [hab]
      by_cases h0 : s.1 = 0
      · rw [h0, add_zero, add_zero, roundQ_of_repr (roundQ_repr _), add_zero]
        have : (0 : ℚ) ≤ |y| := abs_nonneg y
        linarith
      · have h1 : 1 ≤ s.1 := by
          rcases hs' with h | h | h | h | h | h <;> subst h <;> first | exact absurd rfl h0 | norm_num
        have ha := roundQ_any (roundQ y + s.1)
        have e : roundQ (roundQ y + s.1) - (y + s.1) =
            (roundQ (roundQ y + s.1) - (roundQ y + s.1)) + (roundQ y - y) := by ring
        rw [e]
        refine (abs_add_le _ _).trans ?_
        have hz : |roundQ y + s.1| ≤ |y| + |y| / 2 ^ 24 + s.1 := by
          have e2 : roundQ y + s.1 = y + (roundQ y - y) + s.1 := by ring
          rw [e2]
          have t1 := abs_add_le (y + (roundQ y - y)) s.1
          have t2 := abs_add_le y (roundQ y - y)
          rw [abs_of_nonneg h5] at t1
          linarith
        have hy0 : (0 : ℚ) ≤ |y| := abs_nonneg y
        have h150 : (1 : ℚ) / 2 ^ 150 ≤ 1 / 2 ^ 40 := by norm_num
        norm_num at hb
        linarith

/-! ### Encoding single numbers -/

theorem exactRaw_mono {s : ℚ × ℚ} (hs : s = (0, 20) ∨ s = (4, 20) ∨ s = (0, 10) ∨ s = (0, 5) ∨
    s = (1, 5) ∨ s = (2, 10)) (f : DataFormat) {p q : ℚ} (h : exactRaw s f p < exactRaw s f q) :
    p ≤ q := by
  obtain ⟨-, -, h3, -, -, -⟩ := span_lit hs
  obtain ⟨h7, -⟩ := fullScale_bounds f
  by_contra hc
  have hc := not_le.mp hc
  have h1 : (q - s.1) / (s.2 - s.1) ≤ (p - s.1) / (s.2 - s.1) :=
    div_le_div_of_nonneg_right (by linarith) (by linarith)
  have h2 := mul_le_mul_of_nonneg_right h1 (by linarith : 0 ≤ fullScale f)
  unfold exactRaw at h
  linarith

theorem encode_fin {r : AnalogUIRange} {s : ℚ × ℚ} (hs : uiScale r = some s) (f : DataFormat)
    {q : ℚ} (hq : Representable q) (hx : |exactRaw s f q| ≤ 32800) :
    (analogUiValueToU16 (.fin q) r f).toInt = clampI16 (truncQ (encodedQ s f q)) := by
  have hs' := scale_cases hs
  obtain ⟨-, -, h3, h4, h5, h6⟩ := span_lit hs'
  obtain ⟨h7, h8⟩ := fullScale_bounds f
  have hb : |q| ≤ 2 ^ 30 := by
    have h1 := scaled_le hs' f hx
    have e : exactRaw s f q * (s.2 - s.1) / fullScale f = q - s.1 := by
      unfold exactRaw
      have : s.2 - s.1 ≠ 0 := by linarith
      have : fullScale f ≠ 0 := by linarith
      field_simp
    rw [e, abs_le] at h1
    norm_num at h1
    rw [abs_le]
    constructor <;> norm_num <;> linarith [h1.1, h1.2]
  rw [encode_eq _ r f s hs, f32ToWord_toInt, rawF_fin hs' f hq hb]
  rfl

/-- Numbers beyond both ends of the 16-bit range. -/
theorem encode_beyond {r : AnalogUIRange} {s : ℚ × ℚ} (hs : uiScale r = some s) (f : DataFormat) :
    ∃ a b : ℚ, Representable a ∧ Representable b ∧
      32768 < exactRaw s f a ∧ exactRaw s f a ≤ 32800 ∧
      exactRaw s f b < -32769 ∧ -32800 ≤ exactRaw s f b := by
  have hs' := scale_cases hs
  have hsn : ∃ n o : ℤ, s.2 - s.1 = n ∧ s.1 = o ∧ |n| ≤ 20 ∧ |o| ≤ 4 ∧ 0 < n := by
    rcases hs' with h | h | h | h | h | h <;> subst h
    · exact ⟨20, 0, by norm_num, by norm_num, by norm_num, by norm_num, by norm_num⟩
    · exact ⟨16, 4, by norm_num, by norm_num, by norm_num, by norm_num, by norm_num⟩
    · exact ⟨10, 0, by norm_num, by norm_num, by norm_num, by norm_num, by norm_num⟩
    · exact ⟨5, 0, by norm_num, by norm_num, by norm_num, by norm_num, by norm_num⟩
    · exact ⟨4, 1, by norm_num, by norm_num, by norm_num, by norm_num, by norm_num⟩
    · exact ⟨8, 2, by norm_num, by norm_num, by norm_num, by norm_num, by norm_num⟩
  obtain ⟨n, o, hn, ho, hnb, hob, hn0⟩ := hsn
  have hn' : (n : ℚ) ≠ 0 := by exact_mod_cast hn0.ne'
  have rep : ∀ c : ℤ, |c| ≤ 4096 → Representable ((o : ℚ) + n * (c / 1024)) := by
    intro c hc
    have := repr_int_div (o * 1024 + n * c) 10 (by
      have h1 : |n * c| ≤ 20 * 4096 := by
        rw [abs_mul]; exact mul_le_mul hnb hc (abs_nonneg _) (by norm_num)
      rw [abs_le] at h1 hob ⊢
      constructor <;> omega) (by norm_num)
    have e : ((o * 1024 + n * c : ℤ) : ℚ) / 2 ^ 10 = o + n * (c / 1024) := by push_cast; ring
    rwa [e] at this
  have ex : ∀ c : ℤ, exactRaw s f ((o : ℚ) + n * (c / 1024)) = c / 1024 * fullScale f := by
    intro c
    unfold exactRaw
    rw [hn, ho]
    field_simp
    ring
  cases f
  · refine ⟨_, _, rep 2049 (by norm_num), rep (-2049) (by norm_num), ?_⟩
    rw [ex, ex]
    norm_num [fullScale]
  · refine ⟨_, _, rep 1214 (by norm_num), rep (-1214) (by norm_num), ?_⟩
    rw [ex, ex]
    norm_num [fullScale]

theorem truncQ_ge {q : ℚ} {n : ℤ} (h : (n : ℚ) ≤ q) : n ≤ truncQ q := by
  have := truncQ_mono h
  rwa [truncQ_int] at this

theorem truncQ_le {q : ℚ} {n : ℤ} (h : q ≤ n) : truncQ q ≤ n := by
  have := truncQ_mono h
  rwa [truncQ_int] at this

theorem truncQ_bounds (q : ℚ) : |(truncQ q : ℚ) - q| < 1 ∧ |(truncQ q : ℚ)| ≤ |q| := by
  rcases le_total 0 q with h | h
  · rw [truncQ_of_nonneg h]
    have h1 := Int.floor_le q
    have h2 := Int.lt_floor_add_one q
    have h3 : (0 : ℚ) ≤ ⌊q⌋ := by exact_mod_cast Int.floor_nonneg.mpr h
    rw [abs_of_nonneg h3, abs_of_nonneg h, abs_lt]
    exact ⟨⟨by linarith, by linarith⟩, h1⟩
  · rw [truncQ_of_nonpos h]
    have h1 := Int.le_ceil q
    have h2 := Int.ceil_lt_add_one q
    have h3 : (⌈q⌉ : ℚ) ≤ 0 := by
      have : ⌈q⌉ ≤ 0 := Int.ceil_le.mpr (by simpa using h)
      exact_mod_cast this
    rw [abs_of_nonpos h3, abs_of_nonpos h, abs_lt]
    exact ⟨⟨by linarith, by linarith⟩, by linarith⟩

theorem encode_high {r : AnalogUIRange} {s : ℚ × ℚ} (hs : uiScale r = some s) (f : DataFormat)
    {q : ℚ} (hq : Representable q) (hx : 32768 ≤ exactRaw s f q) :
    (analogUiValueToU16 (.fin q) r f).toInt = 32767 := by
  have hs' := scale_cases hs
  have key : ∀ p : ℚ, Representable p → 32768 ≤ exactRaw s f p → exactRaw s f p ≤ 32800 →
      32767 ≤ (analogUiValueToU16 (.fin p) r f).toInt := by
    intro p hp h1 h2
    have hb : |exactRaw s f p| ≤ 32800 := by rw [abs_le]; constructor <;> linarith
    have hn := (abs_le.mp (encodedQ_near hs' f p hb)).1
    rw [encode_fin hs f hp hb]
    have := truncQ_ge (n := 32767) (q := encodedQ s f p) (by push_cast; linarith)
    unfold clampI16
    split_ifs <;> omega
  have hle : (analogUiValueToU16 (.fin q) r f).toInt ≤ 32767 := by
    rw [encode_eq _ r f s hs, f32ToWord_toInt]; exact (toI16_le _).2
  have hge : 32767 ≤ (analogUiValueToU16 (.fin q) r f).toInt := by
    by_cases h : exactRaw s f q ≤ 32800
    · exact key q hq hx h
    · obtain ⟨a, -, ha, -, h1, h2, -⟩ := encode_beyond hs f
      have haq : a ≤ q := exactRaw_mono hs' f (by linarith [not_le.mp h])
      exact (key a ha h1.le h2).trans (encode_mono r f (show F32Le (.fin a) (.fin q) from haq))
  omega

theorem encode_low {r : AnalogUIRange} {s : ℚ × ℚ} (hs : uiScale r = some s) (f : DataFormat)
    {q : ℚ} (hq : Representable q) (hx : exactRaw s f q ≤ -32769) :
    (analogUiValueToU16 (.fin q) r f).toInt = -32768 := by
  have hs' := scale_cases hs
  have key : ∀ p : ℚ, Representable p → exactRaw s f p ≤ -32769 → -32800 ≤ exactRaw s f p →
      (analogUiValueToU16 (.fin p) r f).toInt ≤ -32768 := by
    intro p hp h1 h2
    have hb : |exactRaw s f p| ≤ 32800 := by rw [abs_le]; constructor <;> linarith
    have hn := (abs_le.mp (encodedQ_near hs' f p hb)).2
    rw [encode_fin hs f hp hb]
    have := truncQ_le (n := -32768) (q := encodedQ s f p) (by push_cast; linarith)
    unfold clampI16
    split_ifs <;> omega
  have hge : -32768 ≤ (analogUiValueToU16 (.fin q) r f).toInt := by
    rw [encode_eq _ r f s hs, f32ToWord_toInt]; exact (toI16_le _).1
  have hle : (analogUiValueToU16 (.fin q) r f).toInt ≤ -32768 := by
    by_cases h : -32800 ≤ exactRaw s f q
    · exact key q hq hx h
    · obtain ⟨-, b, -, hb, -, -, h1, h2⟩ := encode_beyond hs f
      have haq : q ≤ b := exactRaw_mono hs' f (by linarith [not_le.mp h])
      exact (encode_mono r f (show F32Le (.fin q) (.fin b) from haq)).trans (key b hb h1.le h2)
  omega

theorem encode_accuracy {r : AnalogUIRange} {s : ℚ × ℚ} (hs : uiScale r = some s) (f : DataFormat)
    {q : ℚ} (hq : Representable q) (hlo : -32769 < exactRaw s f q) (hhi : exactRaw s f q < 32768) :
    |((analogUiValueToU16 (.fin q) r f).toInt : ℚ) - exactRaw s f q| < 1 + 1 / 16 ∧
    |((analogUiValueToU16 (.fin q) r f).toInt : ℚ)| ≤ |exactRaw s f q| + 1 / 16 := by
  have hs' := scale_cases hs
  have hb : |exactRaw s f q| ≤ 32800 := by rw [abs_le]; constructor <;> linarith
  have hn := encodedQ_near hs' f q hb
  rw [encode_fin hs f hq hb]
  obtain ⟨h1, h2⟩ := truncQ_bounds (encodedQ s f q)
  have hab := abs_sub_abs_le_abs_sub (encodedQ s f q) (exactRaw s f q)
  have key : |(truncQ (encodedQ s f q) : ℚ) - exactRaw s f q| < 1 + 1 / 16 ∧
      |(truncQ (encodedQ s f q) : ℚ)| ≤ |exactRaw s f q| + 1 / 16 := by
    constructor
    · have := abs_sub_le (truncQ (encodedQ s f q) : ℚ) (encodedQ s f q) (exactRaw s f q)
      linarith
    · linarith
  obtain ⟨k1, k2⟩ := key
  rw [abs_lt] at k1
  unfold clampI16
  split_ifs with c1 c2
  · have c1' : (truncQ (encodedQ s f q) : ℚ) ≤ -32769 := by exact_mod_cast (by omega)
    constructor
    · rw [abs_lt]; push_cast; constructor <;> linarith
    · refine le_trans ?_ k2
      push_cast
      rw [abs_of_nonpos (by linarith : (truncQ (encodedQ s f q) : ℚ) ≤ 0)]
      norm_num
      linarith
  · have c2' : (32768 : ℚ) ≤ truncQ (encodedQ s f q) := by exact_mod_cast (by omega)
    constructor
    · rw [abs_lt]; push_cast; constructor <;> linarith
    · refine le_trans ?_ k2
      push_cast
      rw [abs_of_nonneg (by linarith : (0 : ℚ) ≤ truncQ (encodedQ s f q))]
      norm_num
      linarith
  · exact ⟨by rw [abs_lt]; exact k1, k2⟩

theorem encode_special {r : AnalogUIRange} {s : ℚ × ℚ} (hs : uiScale r = some s) (f : DataFormat) :
    (analogUiValueToU16 .nan r f).toInt = 0 ∧
    (analogUiValueToU16 (.inf false) r f).toInt = 32767 ∧
    (analogUiValueToU16 (.inf true) r f).toInt = -32768 := by
  have hs' := scale_cases hs
  obtain ⟨h1, h2, h3, -, -, -⟩ := span_lit hs'
  obtain ⟨h7, -⟩ := fullScale_bounds f
  refine ⟨?_, ?_, ?_⟩
  · rw [encode_eq _ r f s hs, f32ToWord_toInt]
    have : rawF s f .nan = .nan := by
      unfold rawF
      rw [h1, h2, factor_eq]
      split <;> rfl
    rw [this]; rfl
  all_goals
    rw [encode_eq _ r f s hs, f32ToWord_toInt]
    have hm : ∀ b, rawF s f (.inf b) = .inf b := by
      intro b
      unfold rawF
      rw [h1, h2, factor_eq]
      have e1 : (if s.1 = 0 then F32.inf b else F32.inf b - .fin s.1) = .inf b := by split <;> rfl
      rw [e1]
      have e2 : (F32.fin (fullScale f)) * (F32.inf b) = .inf b := by
        show F32.mul _ _ = _
        simp [F32.mul, (by linarith : fullScale f ≠ 0), not_lt.mpr (by linarith : 0 ≤ fullScale f)]
      rw [e2]
      show F32.div _ _ = _
      simp only [F32.div, decide_eq_false (not_lt.mpr (by linarith : 0 ≤ s.2 - s.1))]
      simp
    rw [hm]
    rfl

end Ur20
