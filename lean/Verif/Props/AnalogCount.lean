import Mathlib.Data.Set.Card
import Verif.Props.Settle
import Verif.Lemmas.SettleCountZero
import Verif.Lemmas.SettleCountPos
import Verif.Lemmas.SettleCountNeg

/-!
# C54: how many registers decoding and encoding changes
-/

namespace Ur20

open Spec Settle F32

theorem recode_exact {r : AnalogUIRange} {s : ℚ × ℚ} (hs : uiScale r = some s) (w : Word)
    (h : recode (r, .S7) w = w) :
    (0 < w.toInt → (w.toInt : ℚ) ≤ encodedQ s .S7 (decodedQ s .S7 w.toInt)) ∧
    (w.toInt < 0 → encodedQ s .S7 (decodedQ s .S7 w.toInt) ≤ (w.toInt : ℚ)) := by
  have e : w.toInt = clampI16 (truncQ (encodedQ s .S7 (decodedQ s .S7 w.toInt))) := by
    rw [← round_trip_eq hs]
    conv_lhs => rw [← h]
    unfold recode
    simp only [hs]
  generalize encodedQ s .S7 (decodedQ s .S7 w.toInt) = q at *
  constructor
  · intro h0
    have h1 : w.toInt ≤ truncQ q := by
      rw [e] at h0 ⊢
      unfold clampI16 at h0 ⊢
      split_ifs at h0 ⊢ <;> omega
    by_contra hlt
    have hq : 0 ≤ q := by
      by_contra hq
      have : truncQ q ≤ 0 := truncQ_le (by push_cast; linarith)
      omega
    rw [truncQ_of_nonneg hq] at h1
    exact hlt (Int.le_floor.1 h1)
  · intro h0
    have h1 : truncQ q ≤ w.toInt := by
      rw [e] at h0 ⊢
      unfold clampI16 at h0 ⊢
      split_ifs at h0 ⊢ <;> omega
    have hq : q < 0 := by
      by_contra hq
      have : 0 ≤ truncQ q := truncQ_ge (by push_cast; linarith)
      omega
    unfold truncQ at h1
    rw [if_pos hq] at h1
    have h2 : (((-q).floor : ℤ) : ℚ) ≤ -q := Rat.floor_le _
    have h3 : ((-(-q).floor : ℤ) : ℚ) ≤ w.toInt := by exact_mod_cast h1
    push_cast at h3
    linarith

/-- The registers that decoding and encoding changes, counted by two checks. -/
theorem count_words (P : Word → Prop) (fp fn : Nat → Bool) (a b : Nat)
    (h0 : ∀ w : Word, w.toInt = 0 → P w)
    (hp : ∀ w : Word, ∀ n : Nat, 1 ≤ n → w.toInt = n → (P w ↔ fp n = true))
    (hn : ∀ w : Word, ∀ n : Nat, 1 ≤ n → w.toInt = -n → (P w ↔ fn n = true))
    (fp0 : fp 0 = true) (fn0 : fn 0 = true) (fnl : fn 32768 = true)
    (ca : ((Finset.Ico 0 32768).filter fun n => fp n = false).card = a)
    (cb : ((Finset.Ico 0 32768).filter fun n => fn n = false).card = b) :
    {w : Word | ¬ P w}.ncard = a + b := by
  classical
  set A := (Finset.Ico 0 32768).filter fun n => fp n = false with hA
  set B := (Finset.Ico 0 32768).filter fun n => fn n = false with hB
  have hmA : ∀ n, n ∈ A ↔ n < 32768 ∧ fp n = false := by intro n; simp [hA]
  have hmB : ∀ n, n ∈ B ↔ n < 32768 ∧ fn n = false := by intro n; simp [hB]
  have iA : ∀ n : Nat, n < 32768 → (BitVec.ofInt 16 (n : ℤ)).toInt = n :=
    fun n h => word_of_int _ (by omega) (by omega)
  have iB : ∀ n : Nat, n < 32768 → (BitVec.ofInt 16 (-(n : ℤ))).toInt = -n :=
    fun n h => word_of_int _ (by omega) (by omega)
  have pA : ∀ n, fp n = false → 1 ≤ n := by
    intro n h
    rcases Nat.eq_zero_or_pos n with rfl | h'
    · rw [fp0] at h; cases h
    · exact h'
  have pB : ∀ n, fn n = false → 1 ≤ n := by
    intro n h
    rcases Nat.eq_zero_or_pos n with rfl | h'
    · rw [fn0] at h; cases h
    · exact h'
  have e : {w : Word | ¬ P w} = ((A.image fun n : Nat => BitVec.ofInt 16 (n : ℤ)) ∪
      (B.image fun n : Nat => BitVec.ofInt 16 (-(n : ℤ))) : Finset Word) := by
    ext w
    have h1 := w.toInt_lt
    have h2 := w.le_toInt
    norm_num at h1 h2
    simp only [Set.mem_ofPred_eq, Finset.coe_union, Finset.coe_image, Set.mem_union, Set.mem_image,
      Finset.mem_coe, hmA, hmB]
    constructor
    · intro h
      rcases lt_trichotomy w.toInt 0 with hw | hw | hw
      · right
        obtain ⟨n, e⟩ : ∃ n : Nat, w.toInt = -n := ⟨(-w.toInt).toNat, by omega⟩
        have hf : fn n = false := by
          rw [hn w n (by omega) e] at h
          simpa using h
        have hl : n ≠ 32768 := by rintro rfl; rw [fnl] at hf; cases hf
        exact ⟨n, ⟨by omega, hf⟩, BitVec.eq_of_toInt_eq (by rw [iB n (by omega), e])⟩
      · exact absurd (h0 w hw) h
      · left
        obtain ⟨n, e⟩ : ∃ n : Nat, w.toInt = n := ⟨w.toInt.toNat, by omega⟩
        have hf : fp n = false := by
          rw [hp w n (by omega) e] at h
          simpa using h
        exact ⟨n, ⟨by omega, hf⟩, BitVec.eq_of_toInt_eq (by rw [iA n (by omega), e])⟩
    · rintro (⟨n, ⟨hl, hf⟩, rfl⟩ | ⟨n, ⟨hl, hf⟩, rfl⟩)
      · rw [hp _ n (pA n hf) (iA n hl), hf]; simp
      · rw [hn _ n (pB n hf) (iB n hl), hf]; simp
  rw [e, Set.ncard_coe_finset, Finset.card_union_of_disjoint, Finset.card_image_of_injOn,
    Finset.card_image_of_injOn, ca, cb]
  · intro x hx y hy hxy
    have hx := (hmB x).1 hx
    have hy := (hmB y).1 hy
    have := congrArg BitVec.toInt hxy
    simp only at this
    rw [iB x hx.1, iB y hy.1] at this
    omega
  · intro x hx y hy hxy
    have hx := (hmA x).1 hx
    have hy := (hmA y).1 hy
    have := congrArg BitVec.toInt hxy
    simp only at this
    rw [iA x hx.1, iA y hy.1] at this
    omega
  · rw [Finset.disjoint_left]
    intro w hw hw'
    simp only [Finset.mem_image, hmA, hmB] at hw hw'
    obtain ⟨x, ⟨hx, fx⟩, rfl⟩ := hw
    obtain ⟨y, ⟨hy, fy⟩, hxy⟩ := hw'
    have := congrArg BitVec.toInt hxy
    rw [iA x hx, iB y hy] at this
    have := pA x fx
    omega

/-- The number of registers that one decoding and encoding changes. -/
theorem recode_count {r : AnalogUIRange} (hr : r ≠ .Disabled) :
    {w : Word | ¬ recode (r, .S7) w = w}.ncard =
      if r = .mA4To20 ∨ r = .V1To5 ∨ r = .V2To10 then 9710 else 3036 := by
  obtain ⟨s, hs⟩ : ∃ s, uiScale r = some s := by
    cases hs : uiScale r with
    | none => cases r <;> simp [uiScale] at hs hr
    | some s => exact ⟨s, rfl⟩
  have zero : ∀ w : Word, w.toInt = 0 → recode (r, .S7) w = w := by
    intro w h
    rw [show w = 0#16 from BitVec.eq_of_toInt_eq h, recode_zero hr]
  rcases scale_sizes hs with ⟨hd, t, ht, rfl⟩ | ⟨hd, t, ht, rfl⟩
  · rw [if_neg (by rintro (rfl | rfl | rfl) <;> simp [maxDrift] at hd)]
    refine count_words (fun w => recode (r, .S7) w = w) fixZ fixZ 1518 1518 zero ?_ ?_
      (by decide +kernel) (by decide +kernel) (by decide +kernel) fixZ_count fixZ_count
    · intro w n h1 e
      constructor
      · intro h
        have := (recode_exact hs w h).1 (by omega)
        rw [e, Int.cast_natCast] at this
        exact fixZ_exact t n ht h1 this
      · intro h
        refine recode_fixed hs w (fun _ => ?_) (fun h' => by omega)
        rw [e, Int.cast_natCast]
        exact fixZ_spec t n ht h1 h
    · intro w n h1 e
      constructor
      · intro h
        have := (recode_exact hs w h).2 (by omega)
        rw [e, Int.cast_neg, Int.cast_natCast, decoded_neg, encoded_neg, neg_le_neg_iff] at this
        exact fixZ_exact t n ht h1 this
      · intro h
        refine recode_fixed hs w (fun h' => by omega) (fun _ => ?_)
        rw [e, Int.cast_neg, Int.cast_natCast, decoded_neg, encoded_neg, neg_le_neg_iff]
        exact fixZ_spec t n ht h1 h
  · rw [if_pos (by cases r <;> simp [maxDrift] at hd ⊢)]
    have bound : ∀ (w : Word) (n : Nat), w.toInt = n ∨ w.toInt = -n → n ≤ 32768 := by
      intro w n h
      have h1 := w.toInt_lt
      have h2 := w.le_toInt
      norm_num at h1 h2
      omega
    refine count_words (fun w => recode (r, .S7) w = w) fixP fixN 6834 2876 zero ?_ ?_
      (by decide +kernel) (by decide +kernel) (by decide +kernel) fixP_count fixN_count
    · intro w n h1 e
      constructor
      · intro h
        have := (recode_exact hs w h).1 (by omega)
        rw [e, Int.cast_natCast] at this
        exact fixP_exact t n ht h1 this
      · intro h
        refine recode_fixed hs w (fun _ => ?_) (fun h' => by omega)
        rw [e, Int.cast_natCast]
        exact fixP_spec t n ht h1 (bound w n (.inl e)) h
    · intro w n h1 e
      constructor
      · intro h
        have := (recode_exact hs w h).2 (by omega)
        rw [e, Int.cast_neg, Int.cast_natCast] at this
        exact fixN_exact t n ht h1 this
      · intro h
        refine recode_fixed hs w (fun h' => by omega) (fun _ => ?_)
        rw [e, Int.cast_neg, Int.cast_natCast]
        exact fixN_spec t n ht h1 (bound w n (.inr e)) h

/-- C54, by number: of the 65536 values of a register in format S7, one decoding and encoding
changes 9710 in the ranges that start above zero and 3036 in the others, and returns the rest. -/
theorem C54_count_partial (t : ModuleType) (par : List Word) (m : Module)
    (hc : Module.create t par = .ok m) (ps : List (AnalogUIRange × DataFormat))
    (ha : analogOutputs m = some ps) (i : Nat) (r : AnalogUIRange)
    (hp : ps[i]? = some (r, .S7)) (hr : r ≠ .Disabled) :
    {w : Word | ∃ ws ws' : List Word, ws.length = 4 ∧ ws[i]? = some w ∧ Recoded m ws ws' ∧
        ws'[i]? ≠ some w}.ncard =
      if r = .mA4To20 ∨ r = .V1To5 ∨ r = .V2To10 then 9710 else 3036 := by
  rw [← recode_count hr]
  congr 1
  ext w
  obtain ⟨h4, -⟩ := analogOutputs_length hc ha
  simp only [Set.mem_ofPred_eq]
  constructor
  · rintro ⟨ws, ws', hl, hw, h, hne⟩ he
    apply hne
    rw [(recoded_eq hc ha ws ws' hl).1 h, List.getElem?_zipWith_eq_some.2 ⟨w, _, hw, hp, rfl⟩, he]
  · intro hne
    have hi : i < 4 := by rw [← h4]; exact (List.getElem?_eq_some_iff.1 hp).1
    have hw : (List.replicate 4 w)[i]? = some w := by rw [List.getElem?_replicate, if_pos hi]
    refine ⟨List.replicate 4 w, _, by simp, hw, (recoded_eq hc ha _ _ (by simp)).2 rfl, ?_⟩
    rw [List.getElem?_zipWith_eq_some.2 ⟨w, _, hw, hp, rfl⟩]
    intro e
    exact hne (Option.some.inj e)

/-- A module with a channel of each kind: 0 to 20 mA loses 3036 registers. -/
example : {w : Word | ∃ ws ws' : List Word, ws.length = 4 ∧ ws[0]? = some w ∧
    Recoded (.ao exAo) ws ws' ∧ ws'[0]? ≠ some w}.ncard = 3036 :=
  C54_count_partial _ _ _ exAo_create exAoChannels rfl 0 .mA0To20 rfl (by simp)

/-- C36, exactly: for each range there is a set of registers that a cycle without a pending value
changes in format S7, and it returns all others. The set has 9710 elements in the ranges that start
above zero and 3036 in the others. -/
theorem C36_count_partial (r : AnalogUIRange) (hen : r ≠ .Disabled) :
    ∃ changed : Set Word,
      changed.ncard = (if r = .mA4To20 ∨ r = .V1To5 ∨ r = .V2To10 then 9710 else 3036) ∧
      ∀ (oc : Bool) (cfg : CouplerConfig) (c : Coupler) (_ : ReachableFrom oc cfg c)
        (j : Nat) (_ : BytesKept (infos c) j) (pi po img : List Word) (c' : Coupler)
        (_ : c.next oc pi po = (c', .ok img))
        (m : Module) (off : ModuleOffset) (_ : ModuleAt c j m off)
        (ps : List (AnalogUIRange × DataFormat)) (_ : analogOutputs m = some ps)
        (o : Word) (_ : off.output = some o) (_ : o.toNat % 16 = 0)
        (ch : Nat) (_ : ps[ch]? = some (r, .S7)) (_ : c.write ⟨j, ch⟩ = none),
        ∃ w w' : Word, po[outBit o / 16 + ch]? = some w ∧ img[outBit o / 16 + ch]? = some w' ∧
          (w' ≠ w ↔ w ∈ changed) := by
  refine ⟨_, recode_count hen, ?_⟩
  intro oc cfg c hr j hdis pi po img c' h m off hm ps ha o ho hal ch hp hw
  obtain ⟨w, w', h1, h2, h3⟩ := analog_cycle hr hdis h hm ha ho hal hp
  rw [hw] at h3
  have h4 := recode_of_idle h3
  subst h4
  exact ⟨w, _, h1, h2, Iff.rfl⟩

end Ur20
