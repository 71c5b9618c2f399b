import Verif.Props.AnalogCoupler
import Verif.Props.Station
import Verif.Lemmas.SettleSpec
import Verif.Spec.Settle

/-!
# C107: a held analog output settles
-/

namespace Ur20

open Spec Com Coupler Settle F32

/-! ### Fixed points -/

theorem recode_fixed {r : AnalogUIRange} {s : ℚ × ℚ} (hs : uiScale r = some s) (w : Word)
    (hp : 0 < w.toInt → (w.toInt : ℚ) ≤ encodedQ s .S7 (decodedQ s .S7 w.toInt))
    (hn : w.toInt < 0 → encodedQ s .S7 (decodedQ s .S7 w.toInt) ≤ (w.toInt : ℚ)) :
    recode (r, .S7) w = w := by
  have hr : r ≠ .Disabled := by rintro rfl; simp [uiScale] at hs
  apply BitVec.eq_of_toInt_eq
  obtain ⟨a, b, c⟩ := recode_step hr .S7 w
  have e : (recode (r, .S7) w).toInt =
      clampI16 (truncQ (encodedQ s .S7 (decodedQ s .S7 w.toInt))) := by
    rw [← round_trip_eq hs]
    unfold recode
    simp only [hs]
  have h1 := w.toInt_lt
  have h2 := w.le_toInt
  norm_num at h1 h2
  rcases lt_trichotomy w.toInt 0 with h | h | h
  · have := truncQ_le (hn h)
    rcases b h with e' | e'
    · exact e'
    · rw [e] at e'
      unfold clampI16 at e'
      split_ifs at e' <;> omega
  · rw [c h, h]
  · have := truncQ_ge (hp h)
    rcases a h with e' | e'
    · exact e'
    · rw [e] at e'
      unfold clampI16 at e'
      split_ifs at e' <;> omega

theorem decoded_neg (S : ℚ) (x : ℤ) : decodedQ (0, S) .S7 (-x) = -decodedQ (0, S) .S7 x := by
  unfold decodedQ
  simp only [add_zero]
  rw [← roundQ_neg, ← roundQ_neg]
  congr 2
  push_cast
  ring

theorem encoded_neg (S v : ℚ) : encodedQ (0, S) .S7 (-v) = -encodedQ (0, S) .S7 v := by
  unfold encodedQ
  simp only [sub_zero]
  rw [roundQ_neg, mul_neg, roundQ_neg, neg_div, roundQ_neg]

/-- The scales by their size. -/
theorem scale_sizes {r : AnalogUIRange} {s : ℚ × ℚ} (h : uiScale r = some s) :
    (maxDrift r = 5 ∧ ∃ t : Nat, t ≤ 2 ∧ s = (0, 20 / 2 ^ t)) ∨
    (maxDrift r = 2 ∧ ∃ t : Nat, t ≤ 2 ∧ s = (4 / 2 ^ t, 20 / 2 ^ t)) := by
  cases r <;> simp only [uiScale, Option.some.injEq, reduceCtorEq] at h <;> subst h
  · exact .inl ⟨rfl, 0, by norm_num, by norm_num⟩
  · exact .inr ⟨rfl, 0, by norm_num, by norm_num⟩
  · exact .inl ⟨rfl, 1, by norm_num, by norm_num⟩
  · exact .inl ⟨rfl, 1, by norm_num, by norm_num⟩
  · exact .inl ⟨rfl, 2, by norm_num, by norm_num⟩
  · exact .inl ⟨rfl, 2, by norm_num, by norm_num⟩
  · exact .inr ⟨rfl, 2, by norm_num, by norm_num⟩
  · exact .inr ⟨rfl, 1, by norm_num, by norm_num⟩

theorem word_of_int (z : ℤ) (h1 : -32768 ≤ z) (h2 : z ≤ 32767) : (BitVec.ofInt 16 z).toInt = z := by
  rw [BitVec.toInt_ofInt]
  exact Int.bmod_eq_of_le (by norm_num; omega) (by norm_num; omega)

theorem recode_zero {r : AnalogUIRange} (hr : r ≠ .Disabled) : recode (r, .S7) 0#16 = 0#16 :=
  BitVec.eq_of_toInt_eq ((recode_step hr .S7 0#16).2.2 rfl)

/-- Near every register, towards zero, there is one that decoding and encoding returns. -/
theorem fixed_near {r : AnalogUIRange} (hr : r ≠ .Disabled) (w : Word) :
    ∃ p : Word, recode (r, .S7) p = p ∧
      (0 ≤ w.toInt → 0 ≤ p.toInt ∧ p.toInt ≤ w.toInt ∧ w.toInt ≤ p.toInt + maxDrift r) ∧
      (w.toInt ≤ 0 → p.toInt ≤ 0 ∧ w.toInt ≤ p.toInt ∧ p.toInt ≤ w.toInt + maxDrift r) := by
  have h1 := w.toInt_lt
  have h2 := w.le_toInt
  norm_num at h1 h2
  obtain ⟨s, hs⟩ : ∃ s, uiScale r = some s := by
    cases hs : uiScale r with
    | none => cases r <;> simp [uiScale] at hs hr
    | some s => exact ⟨s, rfl⟩
  -- a check that decides positive and one that decides negative registers
  have key : ∃ fp fn : Nat → Bool,
      (∀ n, n ≤ 32768 → ∃ p, p ≤ n ∧ n ≤ p + maxDrift r ∧ fp p = true) ∧
      (∀ n, n ≤ 32768 → ∃ p, p ≤ n ∧ n ≤ p + maxDrift r ∧ fn p = true) ∧
      (∀ n : Nat, 1 ≤ n → n ≤ 32768 → fp n = true →
        (n : ℚ) ≤ encodedQ s .S7 (decodedQ s .S7 n)) ∧
      (∀ n : Nat, 1 ≤ n → n ≤ 32768 → fn n = true →
        encodedQ s .S7 (decodedQ s .S7 (-n)) ≤ -(n : ℚ)) := by
    rcases scale_sizes hs with ⟨hd, t, ht, rfl⟩ | ⟨hd, t, ht, rfl⟩
    · rw [hd]
      refine ⟨fixZ, fixZ, fixZ_cover, fixZ_cover, fun n a _ c => fixZ_spec t n ht a c,
        fun n a _ c => ?_⟩
      rw [decoded_neg, encoded_neg, neg_le_neg_iff]
      exact fixZ_spec t n ht a c
    · rw [hd]
      exact ⟨fixP, fixN, fixP_cover, fixN_cover, fun n a b c => fixP_spec t n ht a b c,
        fun n a b c => fixN_spec t n ht a b c⟩
  obtain ⟨fp, fn, cp, cn, sp, sn⟩ := key
  rcases le_total 0 w.toInt with h0 | h0
  · obtain ⟨x, hx⟩ : ∃ x : Nat, w.toInt = x := ⟨w.toInt.toNat, by omega⟩
    obtain ⟨p, p1, p2, p3⟩ := cp x (by omega)
    have hi := word_of_int p (by omega) (by omega)
    refine ⟨BitVec.ofInt 16 p, ?_, ?_, ?_⟩
    · apply recode_fixed hs
      · intro h
        rw [hi] at h ⊢
        rw [Int.cast_natCast]
        exact sp p (by omega) (by omega) p3
      · intro h; omega
    · intro; omega
    · intro; omega
  · obtain ⟨x, hx⟩ : ∃ x : Nat, w.toInt = -x := ⟨(-w.toInt).toNat, by omega⟩
    obtain ⟨p, p1, p2, p3⟩ := cn x (by omega)
    have hi := word_of_int (-p) (by omega) (by omega)
    refine ⟨BitVec.ofInt 16 (-p), ?_, ?_, ?_⟩
    · apply recode_fixed hs
      · intro h; omega
      · intro h
        rw [hi] at h ⊢
        rw [Int.cast_neg, Int.cast_natCast]
        exact sn p (by omega) (by omega) p3
    · intro; omega
    · intro; omega

/-- A register that is decoded and encoded again and again. -/
theorem settle_seq {r : AnalogUIRange} (hr : r ≠ .Disabled) (f : DataFormat) (w : Nat → Word)
    (h : ∀ n, w (n + 1) = recode (r, f) (w n)) :
    (∀ n, |(w n).toInt - (w 0).toInt| ≤ maxDrift r) ∧
      ∀ n, maxDrift r ≤ n → w n = w (maxDrift r) := by
  have stay : ∀ k, recode (r, f) (w k) = w k → ∀ n, k ≤ n → w n = w k := by
    intro k hk n hn
    induction n, hn using Nat.le_induction with
    | base => rfl
    | succ n _ ih => rw [h n, ih, hk]
  cases f with
  | S5 =>
    have e : ∀ n, w n = w 0 := fun n => stay 0 (recode_S5 hr _) n (Nat.zero_le n)
    exact ⟨fun n => by rw [e n]; simp, fun n _ => by rw [e n, e (maxDrift r)]⟩
  | S7 =>
    obtain ⟨p, hp, a, b⟩ := fixed_near hr (w 0)
    generalize maxDrift r = d at *
    -- the register stays between its first value and the fixed point
    have inv : ∀ n,
        (0 ≤ (w 0).toInt → p.toInt ≤ (w n).toInt ∧ (w n).toInt ≤ (w 0).toInt ∧
          (recode (r, .S7) (w n) = w n ∨ (w n).toInt = (w 0).toInt - n)) ∧
        ((w 0).toInt ≤ 0 → (w n).toInt ≤ p.toInt ∧ (w 0).toInt ≤ (w n).toInt ∧
          (recode (r, .S7) (w n) = w n ∨ (w n).toInt = (w 0).toInt + n)) := by
      intro n
      induction n with
      | zero => exact ⟨fun h0 => ⟨(a h0).2.1, le_refl _, .inr (by simp)⟩,
          fun h0 => ⟨(b h0).2.1, le_refl _, .inr (by simp)⟩⟩
      | succ n ih =>
        by_cases hfix : recode (r, .S7) (w n) = w n
        · have e : w (n + 1) = w n := (h n).trans hfix
          rw [e]
          exact ⟨fun h0 => ⟨(ih.1 h0).1, (ih.1 h0).2.1, .inl hfix⟩,
            fun h0 => ⟨(ih.2 h0).1, (ih.2 h0).2.1, .inl hfix⟩⟩
        · have hne : (w n).toInt ≠ p.toInt := by
            intro e
            rw [BitVec.eq_of_toInt_eq e] at hfix
            exact hfix hp
          have hne' : (w (n + 1)).toInt ≠ (w n).toInt := by
            intro e
            rw [h n] at e
            exact hfix (BitVec.eq_of_toInt_eq e)
          obtain ⟨sp, sn, sz⟩ := recode_step hr .S7 (w n)
          rw [← h n] at sp sn sz
          constructor
          · intro h0
            obtain ⟨i1, i2, i3⟩ := ih.1 h0
            have i3 := i3.resolve_left hfix
            have hpos : 0 < (w n).toInt := by have := a h0; omega
            rcases sp hpos with e | e
            · exact absurd e hne'
            · exact ⟨by omega, by omega, .inr (by push_cast; omega)⟩
          · intro h0
            obtain ⟨i1, i2, i3⟩ := ih.2 h0
            have i3 := i3.resolve_left hfix
            have hneg : (w n).toInt < 0 := by have := b h0; omega
            rcases sn hneg with e | e
            · exact absurd e hne'
            · exact ⟨by omega, by omega, .inr (by push_cast; omega)⟩
    constructor
    · intro n
      rw [abs_le]
      rcases le_total 0 (w 0).toInt with h0 | h0
      · have := (inv n).1 h0
        have := a h0
        omega
      · have := (inv n).2 h0
        have := b h0
        omega
    · apply stay
      rcases le_total 0 (w 0).toInt with h0 | h0
      · obtain ⟨i1, i2, i3⟩ := (inv d).1 h0
        rcases i3 with e | e
        · exact e
        · have e' : w d = p := BitVec.eq_of_toInt_eq (by have := a h0; omega)
          rw [e', hp]
      · obtain ⟨i1, i2, i3⟩ := (inv d).2 h0
        rcases i3 with e | e
        · exact e
        · have e' : w d = p := BitVec.eq_of_toInt_eq (by have := b h0; omega)
          rw [e', hp]

/-! ### C107 -/

/-- C107: registers that are decoded and encoded again and again move by at most 2 steps in the
ranges that start above zero and by at most 5 in the others, and stay put after as many rounds. -/
theorem C107_settles (t : ModuleType) (par : List Word) (m : Module)
    (hc : Module.create t par = .ok m) (ps : List (AnalogUIRange × DataFormat))
    (ha : analogOutputs m = some ps) (ws : Nat → List Word) (hl : (ws 0).length = 4)
    (h : ∀ n, Recoded m (ws n) (ws (n + 1))) (i : Nat) (r : AnalogUIRange) (f : DataFormat)
    (hp : ps[i]? = some (r, f)) (hr : r ≠ .Disabled) (w0 : Word) (hw : (ws 0)[i]? = some w0) :
    (∀ n, ∃ w : Word, (ws n)[i]? = some w ∧ |w.toInt - w0.toInt| ≤ maxDrift r) ∧
      ∀ n, maxDrift r ≤ n → (ws n)[i]? = (ws (maxDrift r))[i]? := by
  have hlen : ∀ n, (ws n).length = 4 := by
    intro n
    induction n with
    | zero => exact hl
    | succ n ih =>
      rw [(recoded_eq hc ha _ _ ih).1 (h n)]
      simp [ih, (analogOutputs_length hc ha).1]
  have hone : ∀ n w, (ws n)[i]? = some w → (ws (n + 1))[i]? = some (recode (r, f) w) := by
    intro n w hn
    rw [(recoded_eq hc ha _ _ (hlen n)).1 (h n), List.getElem?_zipWith_eq_some.2 ⟨w, _, hn, hp, rfl⟩]
  have hseq : ∀ n, (ws n)[i]? = some (Nat.rec w0 (fun _ w => recode (r, f) w) n) := by
    intro n
    induction n with
    | zero => exact hw
    | succ n ih => exact hone n _ ih
  obtain ⟨a, b⟩ := settle_seq hr f (fun n => Nat.rec w0 (fun _ w => recode (r, f) w) n) (fun _ => rfl)
  exact ⟨fun n => ⟨_, hseq n, a n⟩, fun n hn => by rw [hseq n, hseq (maxDrift r), b n hn]⟩

/-- C107 for a coupler: cycle after cycle, each with the image returned by the one before, the
register of an enabled analog output without a pending write moves by at most 2 or 5 steps in total
and stays put after as many cycles. -/
theorem C107_cycles (oc : Bool) (cfg : CouplerConfig) (c : Nat → Coupler) (pi po : Nat → List Word)
    (hr : ReachableFrom oc cfg (c 0)) (j : Nat) (hdis : BytesKept (infos (c 0)) j)
    (h : ∀ n, (c n).next oc (pi n) (po n) = (c (n + 1), .ok (po (n + 1))))
    (m : Module) (off : ModuleOffset) (hm : ModuleAt (c 0) j m off)
    (ps : List (AnalogUIRange × DataFormat)) (ha : analogOutputs m = some ps)
    (o : Word) (ho : off.output = some o) (hal : o.toNat % 16 = 0)
    (ch : Nat) (r : AnalogUIRange) (f : DataFormat) (hp : ps[ch]? = some (r, f))
    (hen : r ≠ .Disabled) (hw : (c 0).write ⟨j, ch⟩ = none) (w0 : Word)
    (hw0 : (po 0)[outBit o / 16 + ch]? = some w0) :
    (∀ n, ∃ w : Word, (po n)[outBit o / 16 + ch]? = some w ∧ |w.toInt - w0.toInt| ≤ maxDrift r) ∧
      ∀ n, maxDrift r ≤ n →
        (po n)[outBit o / 16 + ch]? = (po (maxDrift r))[outBit o / 16 + ch]? := by
  have hone := recode_cycles hr hdis h hm ha ho hal hp hw
  have hseq : ∀ n, (po n)[outBit o / 16 + ch]? =
      some (Nat.rec w0 (fun _ w => recode (r, f) w) n) := by
    intro n
    induction n with
    | zero => exact hw0
    | succ n ih => exact hone n _ ih
  obtain ⟨a, b⟩ := settle_seq hen f (fun n => Nat.rec w0 (fun _ w => recode (r, f) w) n) (fun _ => rfl)
  exact ⟨fun n => ⟨_, hseq n, a n⟩, fun n hn => by rw [hseq n, hseq (maxDrift r), b n hn]⟩

/-- C107: in format S5 the register of an enabled analog output without a pending write does not
change at all, however many cycles follow. -/
theorem C107_s5 (oc : Bool) (cfg : CouplerConfig) (c : Nat → Coupler) (pi po : Nat → List Word)
    (hr : ReachableFrom oc cfg (c 0)) (j : Nat) (hdis : BytesKept (infos (c 0)) j)
    (h : ∀ n, (c n).next oc (pi n) (po n) = (c (n + 1), .ok (po (n + 1))))
    (m : Module) (off : ModuleOffset) (hm : ModuleAt (c 0) j m off)
    (ps : List (AnalogUIRange × DataFormat)) (ha : analogOutputs m = some ps)
    (o : Word) (ho : off.output = some o) (hal : o.toNat % 16 = 0)
    (ch : Nat) (r : AnalogUIRange) (hp : ps[ch]? = some (r, .S5))
    (hen : r ≠ .Disabled) (hw : (c 0).write ⟨j, ch⟩ = none) (w0 : Word)
    (hw0 : (po 0)[outBit o / 16 + ch]? = some w0) (n : Nat) :
    (po n)[outBit o / 16 + ch]? = some w0 := by
  obtain ⟨w, e, hs, -⟩ := C55_cycles oc cfg c pi po hr j hdis h m off hm ps ha o ho hal ch r .S5 hp hen
    hw w0 hw0 n
  rw [e, hs rfl]

/-- Both bounds are reached: five rounds in the range 0 to 20 mA, two in the range 4 to 20 mA. -/
example :
    Recoded (.ao exAo) [5548#16, 8#16, 0#16, 0#16] [5547#16, 7#16, 0#16, 0#16] ∧
    Recoded (.ao exAo) [5547#16, 7#16, 0#16, 0#16] [5546#16, 6#16, 0#16, 0#16] ∧
    Recoded (.ao exAo) [5546#16, 6#16, 0#16, 0#16] [5545#16, 6#16, 0#16, 0#16] ∧
    Recoded (.ao exAo) [5545#16, 6#16, 0#16, 0#16] [5544#16, 6#16, 0#16, 0#16] ∧
    Recoded (.ao exAo) [5544#16, 6#16, 0#16, 0#16] [5543#16, 6#16, 0#16, 0#16] ∧
    Recoded (.ao exAo) [5543#16, 6#16, 0#16, 0#16] [5543#16, 6#16, 0#16, 0#16] :=
  ⟨⟨_, rfl, by decide +kernel⟩, ⟨_, rfl, by decide +kernel⟩, ⟨_, rfl, by decide +kernel⟩,
    ⟨_, rfl, by decide +kernel⟩, ⟨_, rfl, by decide +kernel⟩, ⟨_, rfl, by decide +kernel⟩⟩

example : exAoChannels[0]? = some (.mA0To20, .S7) ∧ exAoChannels[1]? = some (.mA4To20, .S7) ∧
    maxDrift .mA0To20 = 5 ∧ maxDrift .mA4To20 = 2 := ⟨rfl, rfl, rfl, rfl⟩

/-- The images of an endless run of the example coupler: both channels settle. -/
def exHeld (n : Nat) : List Word :=
  [3#16, BitVec.ofNat 16 (5548 - min n 5), BitVec.ofNat 16 (8 - min n 2), 0xABCD#16, 0#16]

/-- The couplers of this run. -/
def exHeldRun : Nat → Coupler
  | 0 => initial exAoCfg exAoModules
  | n + 1 => ((exHeldRun n).next true [] (exHeld n)).1

theorem exHeldRun_spec (n : Nat) : ReachableFrom true exAoCfg (exHeldRun n) ∧
    ∀ a, (exHeldRun n).write a = none := by
  induction n with
  | zero => exact ⟨exAo_reachable [], fun _ => rfl⟩
  | succ n ih =>
    obtain ⟨⟨c0, ops, h0, h1⟩, hw⟩ := ih
    refine ⟨⟨c0, ops ++ [.next [] (exHeld n)], h0, ?_⟩, fun a => ?_⟩
    · simp only [runC, List.foldl_append, List.foldl_cons, List.foldl_nil, COp.apply]
      rw [show List.foldl (COp.apply true) c0 ops = exHeldRun n from h1.symm]
      rfl
    · rcases Spec.Plant.next_write true (exHeldRun n) [] (exHeld n) a with h | h
      · exact h
      · exact h.trans (hw a)

/-- The hypotheses of `C107_cycles` hold of this run. -/
theorem exHeldRun_next (n : Nat) : (exHeldRun n).next true [] (exHeld n) =
    (exHeldRun (n + 1), .ok (exHeld (n + 1))) := by
  refine Prod.ext rfl ?_
  have hser : ∀ n : Nat, exAoCfg.modules[n]? ≠ some ModuleType.UR20_1COM_232_485_422 := by
    intro n
    match n with
    | 0 => decide
    | 1 => decide
    | n + 2 =>
      rw [List.getElem?_eq_none (by simp [exAoCfg])]
      simp
  rw [(C34_only_images true exAoCfg _ _ (exHeldRun_spec n).1 (exAo_reachable []) hser
    (exHeldRun_spec n).2 (fun _ => rfl) [] (exHeld n)).1]
  change _ = Res.ok (exHeld (n + 1))
  have h5 : ∀ n, 5 ≤ n → exHeld n = exHeld 5 := by
    intro n hn
    unfold exHeld
    rw [Nat.min_eq_right hn, Nat.min_eq_right (by omega : 2 ≤ n)]
    rfl
  by_cases hn : 5 ≤ n
  · rw [h5 n hn, h5 (n + 1) (by omega)]
    decide +kernel
  · obtain h | h | h | h | h : n = 0 ∨ n = 1 ∨ n = 2 ∨ n = 3 ∨ n = 4 := by omega
    all_goals subst h; decide +kernel

example : ∀ n, 5 ≤ n → (exHeld n)[1]? = (exHeld 5)[1]? :=
  (C107_cycles true exAoCfg exHeldRun (fun _ => []) exHeld (exAo_reachable []) 1
    (exAo_disjoint 1) exHeldRun_next (.ao exAo) ⟨none, some 0x8010#16⟩ ⟨rfl, rfl⟩ exAoChannels rfl 0x8010#16 rfl rfl 0
    .mA0To20 .S7 rfl (by simp) rfl 5548#16 rfl).2

example : ∀ n, (exHeld n)[3]? = some 0xABCD#16 :=
  C107_s5 true exAoCfg exHeldRun (fun _ => []) exHeld (exAo_reachable []) 1
    (exAo_disjoint 1) exHeldRun_next (.ao exAo) ⟨none, some 0x8010#16⟩ ⟨rfl, rfl⟩ exAoChannels rfl 0x8010#16 rfl rfl 2
    .V0To10 rfl (by simp) rfl 0xABCD#16 rfl

end Ur20
