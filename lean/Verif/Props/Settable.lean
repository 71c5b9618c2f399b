import Verif.Spec.Settable
import Verif.Props.Visible
import Verif.Props.Success

/-! # The output images an application can get: C117 -/

namespace Ur20

open Spec Com Coupler F32

/-- Every register has a number that is encoded as it. -/
theorem number_of_register {r : AnalogUIRange} (f : DataFormat) (w : Word)
    (hr : r = .Disabled → w = 0#16) :
    ∃ x : F32, ∀ w' : Word, EncodedAs (r, f) x w'.toInt → w' = w := by
  cases hs : uiScale r with
  | none =>
    refine ⟨.nan, fun w' h => ?_⟩
    simp only [EncodedAs, hs] at h
    have hd : r = .Disabled := by cases r <;> simp_all [uiScale]
    rw [hr hd]
    exact BitVec.eq_of_toInt_eq (by simpa using h)
  | some s =>
    have hsc : 4 ≤ s.2 - s.1 ∧ s.2 - s.1 ≤ 20 ∧ 0 ≤ s.1 ∧ s.1 ≤ 4 := by
      cases r <;> simp only [uiScale] at hs <;> cases hs <;> norm_num
    have hf : 16384 ≤ fullScale f ∧ fullScale f ≤ 27648 := by
      cases f <;> norm_num [fullScale]
    obtain ⟨h1, h2, h3, h4⟩ := hsc
    obtain ⟨h5, h6⟩ := hf
    -- the exact raw value to aim at
    obtain ⟨y, hy, hb⟩ : ∃ y : ℚ, |y| ≤ 32769 ∧ ((w.toInt = 0 ∧ y = 0) ∨
        (0 < w.toInt ∧ y = w.toInt + 1 / 2) ∨ (w.toInt < 0 ∧ y = w.toInt - 1 / 2)) := by
      obtain ⟨b1, b2⟩ := word_signed w
      rcases lt_trichotomy w.toInt 0 with h | h | h
      · refine ⟨w.toInt - 1 / 2, ?_, Or.inr (Or.inr ⟨h, rfl⟩)⟩
        rw [abs_le]; constructor <;> linarith
      · exact ⟨0, by norm_num, Or.inl ⟨h, rfl⟩⟩
      · refine ⟨w.toInt + 1 / 2, ?_, Or.inr (Or.inl ⟨h, rfl⟩)⟩
        rw [abs_le]; constructor <;> linarith
    have hF : 0 < fullScale f := by linarith
    have hd : 0 < s.2 - s.1 := by linarith
    obtain ⟨P, hP⟩ : ∃ P, P = s.1 + y / fullScale f * (s.2 - s.1) := ⟨_, rfl⟩
    have hPb : |P| ≤ 2 ^ 6 := by
      have e1 : |y / fullScale f| ≤ 2 + 1 / 8 := by
        rw [abs_div, abs_of_pos hF, div_le_iff₀ hF]
        linarith
      have e2 : |y / fullScale f * (s.2 - s.1)| ≤ 45 := by
        rw [abs_mul, abs_of_pos hd]
        have := mul_le_mul e1 h2 hd.le (by norm_num)
        linarith
      rw [abs_le] at e2 ⊢
      rw [hP]
      constructor <;> norm_num <;> linarith [e2.1, e2.2]
    have hx : Single (roundQ P) := (nearest_roundQ (hPb.trans (by norm_num))).1
    have herr := roundQ_err 6 hPb
    refine ⟨.fin (roundQ P), fun w' h => ?_⟩
    simp only [EncodedAs, hs] at h
    obtain ⟨-, -, h⟩ := h.2.2.2 _ rfl hx
    have hraw : |exactRaw s f (roundQ P) - y| ≤ 1 / 32 := by
      have e : exactRaw s f (roundQ P) - y = (roundQ P - P) * fullScale f / (s.2 - s.1) := by
        rw [exactRaw, hP]
        have := hF.ne'
        have := hd.ne'
        field_simp
        ring
      rw [e, abs_div, abs_mul, abs_of_pos hF, abs_of_pos hd, div_le_iff₀ hd]
      have := mul_le_mul herr h6 hF.le (by norm_num)
      norm_num at this
      linarith
    generalize exactRaw s f (roundQ P) = z at *
    obtain ⟨b1, b2⟩ := word_signed w
    rw [abs_le] at hraw
    have key : w'.toInt = w.toInt := by
      rcases hb with ⟨h0, rfl⟩ | ⟨h0, rfl⟩ | ⟨h0, rfl⟩
      · have := (h (by linarith [hraw.1]) (by linarith [hraw.2])).2
        have hz : |z| ≤ 1 / 32 := by rw [abs_le]; constructor <;> linarith [hraw.1, hraw.2]
        have hw : |(w'.toInt : ℚ)| < 1 := by linarith
        rw [h0]
        rw [← Int.cast_abs] at hw
        have : |w'.toInt| < 1 := by exact_mod_cast hw
        rwa [Int.abs_lt_one_iff] at this
      · have hw1 : (1 : ℚ) ≤ w.toInt := by exact_mod_cast h0
        obtain ⟨k1, k2⟩ := h (by linarith [hraw.1]) (by linarith [hraw.2])
        rw [abs_of_pos (show (0 : ℚ) < z by linarith [hraw.1])] at k2
        rw [abs_lt] at k1
        rw [abs_le] at k2
        have u1 : (w'.toInt : ℚ) < w.toInt + 1 := by linarith [k2.2, hraw.2]
        have u2 : (w.toInt : ℚ) < w'.toInt + 1 := by linarith [k1.1, hraw.1]
        have u1 : w'.toInt < w.toInt + 1 := by exact_mod_cast u1
        have u2 : w.toInt < w'.toInt + 1 := by exact_mod_cast u2
        omega
      · have hw1 : (w.toInt : ℚ) ≤ -1 := by
          have : w.toInt ≤ -1 := by omega
          exact_mod_cast this
        obtain ⟨k1, k2⟩ := h (by linarith [hraw.1]) (by linarith [hraw.2])
        rw [abs_of_neg (show z < 0 by linarith [hraw.2])] at k2
        rw [abs_lt] at k1
        rw [abs_le] at k2
        have u1 : (w'.toInt : ℚ) < w.toInt + 1 := by linarith [k1.2, hraw.2]
        have u2 : (w.toInt : ℚ) < w'.toInt + 1 := by linarith [k2.1, hraw.1]
        have u1 : w'.toInt < w.toInt + 1 := by exact_mod_cast u1
        have u2 : w.toInt < w'.toInt + 1 := by exact_mod_cast u2
        omega
    exact BitVec.eq_of_toInt_eq key

theorem control_command {ctl : Word} (h : ctl = 0#16 ∨ ctl = 0x0100#16 ∨ ctl = 0x0200#16) :
    controlOf (commandIn ctl) = ctl := by
  rcases h with rfl | rfl | rfl <;> decide

theorem preset_unique {img img' : List Word} {p ch us : Nat} {ctl : Word}
    (h : CounterPreset img p ch us ctl) (h' : CounterPreset img' p ch us ctl) :
    ∀ k ∈ [2 * ch, 2 * ch + 1, 4 + ch], img[p + k]? = img'[p + k]? := by
  obtain ⟨hi, lo, h1, h2, h3, h4⟩ := h
  obtain ⟨hi', lo', k1, k2, k3, k4⟩ := h'
  have e : hi.toNat = hi'.toNat ∧ lo.toNat = lo'.toNat := by
    have := hi.isLt; have := hi'.isLt; have := lo.isLt; have := lo'.isLt
    omega
  have e1 : hi = hi' := BitVec.eq_of_toNat_eq e.1
  have e2 : lo = lo' := BitVec.eq_of_toNat_eq e.2
  subst e1 e2
  intro k hk
  simp only [List.mem_cons, List.not_mem_nil, or_false] at hk
  rcases hk with rfl | rfl | rfl
  · rw [h1, k1]
  · rw [← Nat.add_assoc, h2, k2]
  · rw [← Nat.add_assoc, h4, k4]

/-- Every channel has an accepted value for what can be set. -/
theorem value_of_goal {t : ModuleType} {par goal : List Word} {pos ch : Nat}
    (h : Settable t par goal pos ch) : ∃ v, Accepts t v ∧ ∀ old new,
      OutputWritten t par old new pos ch (some v) → SameOutput t new goal pos ch := by
  cases t
  case UR20_4AO_UI_16 =>
    obtain ⟨w, h1, h2⟩ := h
    by_cases hp : ∃ f r, ParamIs par (3 * ch) (f : DataFormat) ∧
        ParamIs par (3 * ch + 1) (r : AnalogUIRange)
    · obtain ⟨f, r, hf, hr⟩ := hp
      obtain ⟨x, hx⟩ := number_of_register (r := r) f w (fun e => h2 (e ▸ hr))
      refine ⟨.decimal32 x, Or.inr ⟨x, rfl⟩, ?_⟩
      rintro old new ⟨a, b, f', r', k1, k2, k3, k4, k5⟩
      cases paramIs_format k3 hf
      cases paramIs_range k4 hr
      change new[_]? = goal[_]?
      rw [k2, h1, hx b k5]
    · refine ⟨.disabled, Or.inl rfl, ?_⟩
      rintro old new ⟨a, b, f', r', k1, k2, k3, k4, k5⟩
      exact absurd ⟨f', r', k3, k4⟩ hp
  case UR20_4AO_UI_16_DIAG =>
    obtain ⟨w, h1, h2⟩ := h
    by_cases hp : ∃ f r, ParamIs par (4 * ch) (f : DataFormat) ∧
        ParamIs par (4 * ch + 1) (r : AnalogUIRange)
    · obtain ⟨f, r, hf, hr⟩ := hp
      obtain ⟨x, hx⟩ := number_of_register (r := r) f w (fun e => h2 (e ▸ hr))
      refine ⟨.decimal32 x, Or.inr ⟨x, rfl⟩, ?_⟩
      rintro old new ⟨a, b, f', r', k1, k2, k3, k4, k5⟩
      cases paramIs_format k3 hf
      cases paramIs_range k4 hr
      change new[_]? = goal[_]?
      rw [k2, h1, hx b k5]
    · refine ⟨.disabled, Or.inl rfl, ?_⟩
      rintro old new ⟨a, b, f', r', k1, k2, k3, k4, k5⟩
      exact absurd ⟨f', r', k3, k4⟩ hp
  case UR20_2FCNT_100 =>
    obtain ⟨us, ctl, h1, h2, h3⟩ := h
    refine ⟨.fcntOut ⟨us * 1000, commandIn ctl⟩, Or.inr ⟨_, rfl, by simp only; omega⟩, ?_⟩
    rintro old new ⟨us0, us', ctl0, ctl', k1, k2, k3, k4⟩
    rw [control_command h3] at k4
    rw [show us' = us by simp only at k3; omega, k4] at k2
    exact preset_unique k2 h1
  all_goals first
    | exact h.elim
    | (obtain ⟨b, hb⟩ := h
       refine ⟨.bit b, Or.inr ⟨b, rfl⟩, ?_⟩
       rintro old new ⟨b0, b', k1, k2, k3⟩
       have k3 : b' = b := k3
       change bitAt new _ = bitAt goal _
       rw [k2, hb, k3])

/-- Some values for the addresses of all output channels of a configuration. -/
theorem output_addresses (cfg : CouplerConfig) : ∃ as : List Address, ∀ a, a ∈ as ↔
    ∃ t, cfg.modules[a.module]? = some t ∧ a.channel < outputChannels t := by
  refine ⟨(List.range cfg.modules.length).flatMap fun j =>
    (List.range (((cfg.modules[j]?).map outputChannels).getD 0)).map fun ch => ⟨j, ch⟩, fun a => ?_⟩
  rcases a with ⟨j, ch⟩
  simp only [List.mem_flatMap, List.mem_range, List.mem_map, Address.mk.injEq]
  constructor
  · rintro ⟨j', hj, ch', h, rfl, rfl⟩
    refine ⟨cfg.modules[j'], List.getElem?_eq_getElem hj, ?_⟩
    simpa [List.getElem?_eq_getElem hj] using h
  · rintro ⟨t, ht, hch⟩
    exact ⟨j, (List.getElem?_eq_some_iff.1 ht).1, ch, by simpa [ht] using hch, rfl, rfl⟩

theorem lastSet_map (val : Address → ChannelValue) (as : List Address) (a : Address) :
    lastSet a (as.map fun b => COp.setOutput b (val b)) = if a ∈ as then some (val a) else none := by
  induction as with
  | nil => simp [lastSet]
  | cons b as ih =>
    simp only [List.map_cons, lastSet, ih, List.mem_cons]
    by_cases h : a ∈ as
    · simp [h]
    · by_cases hb : b = a
      · simp [hb, h]
      · simp [h, hb, Ne.symm hb]

/-- C117: an application can get every output image that the modules can be given. There are values
such that `set_output` accepts all of them on any coupler of the configuration, whatever has
happened to it, and with them the next cycle succeeds for any complete images and returns that
image, for all modules whose output bytes no later module uses. -/
theorem C117_settable (oc : Bool) (cfg : CouplerConfig) (goal : List Word)
    (hgoal : ∀ j t par pos ch, OutputsKept cfg j → OutputAt cfg j t par pos ch →
      Settable t par goal pos ch) :
    ∃ vals : List (Address × ChannelValue), ∀ c, ReachableFrom oc cfg c →
      (∀ e ∈ vals, (c.setOutput e.1 e.2).2 = .ok ()) ∧
      ∀ pi po, CompleteImages cfg pi po → ∃ c' img, (setAll oc c vals).next oc pi po = (c', .ok img) ∧
        ∀ j t par pos ch, OutputsKept cfg j → OutputAt cfg j t par pos ch →
          SameOutput t img goal pos ch := by
  classical
  obtain ⟨as, has⟩ := output_addresses cfg
  have hval : ∀ a : Address, ∃ v, (∀ t, cfg.modules[a.module]? = some t → Accepts t v) ∧
      ∀ t par pos, OutputsKept cfg a.module → OutputAt cfg a.module t par pos a.channel → ∀ old new,
        OutputWritten t par old new pos a.channel (some v) → SameOutput t new goal pos a.channel := by
    intro a
    by_cases h : OutputsKept cfg a.module ∧ ∃ t par pos, OutputAt cfg a.module t par pos a.channel
    · obtain ⟨hk, t, par, pos, h⟩ := h
      obtain ⟨v, hv1, hv2⟩ := value_of_goal (hgoal _ _ _ _ _ hk h)
      obtain ⟨o, i, hcfg, -, -, -, hpos, -⟩ := h
      refine ⟨v, fun t' ht' => ?_, fun t' par' pos' _ h' => ?_⟩
      · rw [hcfg.1] at ht'
        cases ht'
        exact hv1
      · obtain ⟨o', i', hcfg', -, -, -, hpos', -⟩ := h'
        have e1 := hcfg.1.symm.trans hcfg'.1
        have e2 := hcfg.2.1.symm.trans hcfg'.2.1
        have e3 := hcfg.2.2.1.symm.trans hcfg'.2.2.1
        cases e1
        cases e2
        cases e3
        rw [hpos', ← hpos]
        exact hv2
    · refine ⟨.disabled, fun t _ => ?_, fun t par pos hk h' => absurd ⟨hk, t, par, pos, h'⟩ h⟩
      cases t <;> first | exact Or.inl rfl | exact trivial
  choose val hacc hwr using hval
  refine ⟨as.map fun a => (a, val a), fun c hr => ⟨?_, fun pi po hcom => ?_⟩⟩
  · intro e he
    obtain ⟨a, ha, rfl⟩ := List.mem_map.1 he
    obtain ⟨t, ht, hch⟩ := (has a).1 ha
    refine (C31_addresses oc cfg c hr a (val a)).1.2 ⟨t, ht, hch.trans_le ?_⟩
    cases t <;> decide
  · have hsa : setAll oc c (as.map fun a => (a, val a)) =
        runC oc c (as.map fun b => COp.setOutput b (val b)) := by
      simp [setAll, List.map_map, Function.comp_def]
    rw [hsa]
    have hr' := reachable_run hr (as.map fun b => COp.setOutput b (val b))
    have hw : ∀ j t par o i ch, ConfiguredAt cfg j t par o i → ch < outputChannels t →
        (runC oc c (as.map fun b => COp.setOutput b (val b))).write ⟨j, ch⟩ =
          some (val ⟨j, ch⟩) := by
      intro j t par o i ch hcfg hch
      rw [write_calls (valid_output hr hcfg hch), lastSet_map,
        if_pos ((has _).2 ⟨t, hcfg.1, hch⟩), Option.some_or]
      intro op hop
      obtain ⟨a, -, rfl⟩ := List.mem_map.1 hop
      trivial
    have henc : Encodable cfg (runC oc c (as.map fun b => COp.setOutput b (val b))).write po := by
      refine ⟨fun j t par o i ch v hcfg _ hv => ?_, fun j t par o i ch us hcfg _ ht hch hn => ?_⟩
      · by_cases hch : ch < outputChannels t
        · rw [hw j t par o i ch hcfg hch] at hv
          cases hv
          exact hacc ⟨j, ch⟩ t hcfg.1
        · have hva := (inv_of_reachable hr').valid ⟨j, ch⟩ (by rw [hv]; simp)
          obtain ⟨m, hm, hc⟩ := configured_at hr' hcfg
          unfold isValidAddr at hva
          simp only [hm.1, decide_eq_true_eq] at hva
          rw [isCreated_channels (create_good hc)] at hva
          cases t <;> first | exact trivial | exact absurd hva hch
      · subst ht
        rw [hw j _ par o i ch hcfg hch] at hn
        cases hn
    obtain ⟨c', img, h, -⟩ := C68_success oc cfg _ hr' pi po hcom henc
    refine ⟨c', img, h, fun j t par pos ch hk hat => ?_⟩
    obtain ⟨o, i, hcfg, ht, hno, hal, hpos, hch⟩ := id hat
    have himg := C72_image oc cfg _ hr' j hk pi po img c' h t par o i hcfg ht hno hal ch hch
    rw [hw j t par o i ch hcfg hch] at himg
    rw [← hpos] at himg
    exact hwr ⟨j, ch⟩ t par _ hk hat po img himg

/-- C117: no other image is ever returned. -/
theorem C117_possible (oc : Bool) (cfg : CouplerConfig) (j : Nat) (hdis : OutputsKept cfg j) (c : Coupler)
    (hr : ReachableFrom oc cfg c) (pi po img : List Word) (c' : Coupler)
    (h : c.next oc pi po = (c', .ok img)) (t : ModuleType) (par : List Word)
    (pos ch : Nat) (hat : OutputAt cfg j t par pos ch) : Settable t par img pos ch := by
  obtain ⟨o, i, hcfg, ht, hno, hal, hpos, hch⟩ := hat
  rw [hpos]
  have himg := C72_image oc cfg _ hr j hdis pi po img c' h t par o i hcfg ht hno hal ch hch
  obtain ⟨-, henc⟩ := C69_needed oc cfg c hr pi po img c' h
  have hz : ∀ {f : DataFormat} {v : Option ChannelValue} {w w' : Word},
      AnalogWritten (.Disabled, f) v w w' → w' = 0#16 := by
    intro f v w w' ha
    unfold AnalogWritten at ha
    split at ha
    · exact BitVec.eq_of_toInt_eq (by simpa [EncodedAs, uiScale] using ha)
    · exact ha
    · exact ha.elim
    · simpa [AnalogKept] using ha
  have hctl : ∀ x, controlOf x = 0#16 ∨ controlOf x = 0x0100#16 ∨ controlOf x = 0x0200#16 := by
    intro x
    rcases x with _ | _ | _ <;> simp [controlOf]
  cases t
  case UR20_4AO_UI_16 =>
    obtain ⟨w, w', f, r, h1, h2, h3, h4, h5⟩ := himg
    refine ⟨w', h2, fun hd => ?_⟩
    cases paramIs_range h4 hd
    exact hz h5
  case UR20_4AO_UI_16_DIAG =>
    obtain ⟨w, w', f, r, h1, h2, h3, h4, h5⟩ := himg
    refine ⟨w', h2, fun hd => ?_⟩
    cases paramIs_range h4 hd
    exact hz h5
  case UR20_2FCNT_100 =>
    obtain ⟨us, us', ctl, ctl', h1, h2, h3⟩ := himg
    refine ⟨us', ctl', h2, ?_⟩
    have hp := henc.pending j .UR20_2FCNT_100 par o i ch
    unfold CounterWritten at h3
    split at h3
    · rename_i x hx
      refine ⟨?_, by rw [h3.2]; exact hctl _⟩
      rcases hp _ hcfg hno hx with hv | ⟨y, hv, hy⟩
      · cases hv
      · cases hv
        omega
    · rw [h3.1, h3.2]
      exact ⟨by omega, Or.inl rfl⟩
    · exact h3.elim
    · rename_i hx
      refine ⟨?_, by rw [h3.2]; exact hctl _⟩
      refine henc.preset j _ par o i ch us' hcfg hno rfl hch hx ?_
      obtain ⟨hi, lo, g1, g2, g3, g4⟩ := h1
      have hal : o.toNat % 16 = 0 := by
        rcases hal with hal | hal
        · exact hal
        · exact absurd hal (by simp [outputBytes])
      have hb : outByte o + 4 * ch = 2 * (outBit o / 16 + 2 * ch) := by
        have hbase : outputBase % 16 = 0 := by decide
        unfold outByte outBit
        generalize outputBase = n at *
        omega
      rw [hb, presetAt_registers]
      exact ⟨hi, lo, g1, g2, by rw [h3.1, g3]⟩
  all_goals first
    | exact absurd hch (Nat.not_lt_zero _)
    | (obtain ⟨b, b', k1, k2, -⟩ := himg
       exact ⟨b', k2⟩)

/-- An image with the largest and the smallest register for an analog output and the largest preset
for a counter. -/
def exGoal : List Word :=
  [0xA5C3#16, 0x7FFF#16, 0x8000#16, 1#16, 0#16, 0x7F#16, 0xFFFF#16, 0#16, 1#16, 0x100#16, 0x200#16]

private theorem no_code {w : Word} {r : AnalogUIRange} (h : w.toNat ≠ code r) : ¬ holds r w := h

theorem exGoal_settable : ∀ j t par pos ch, OutputAt exMixCfg j t par pos ch →
    Settable t par exGoal pos ch := by
  intro j t par pos ch h
  obtain ⟨o, i, hcfg, -, hno, -, hpos, hch⟩ := h
  rw [hpos]
  clear hpos
  have hpar := hcfg.2.1
  rcases exMix_at hcfg with ⟨rfl, rfl, rfl⟩ | ⟨rfl, rfl, rfl⟩ | ⟨rfl, rfl, rfl⟩ | ⟨rfl, rfl⟩
  · rw [show outBit 0x8000#16 = 0 by decide, Settable]
    have : ∀ ch < 16, (bitAt exGoal (0 + ch)).isSome = true := by decide
    exact Option.isSome_iff_exists.1 (this ch hch)
  · cases hpar
    rw [show outBit 0x8010#16 = 16 by decide]
    have hch : ch < 4 := hch
    match ch, hch with
    | 0, _ => exact ⟨0x7FFF#16, rfl, fun ⟨w, h1, h2⟩ => by cases h1; exact (no_code (by decide) h2).elim⟩
    | 1, _ => exact ⟨0x8000#16, rfl, fun ⟨w, h1, h2⟩ => by cases h1; exact (no_code (by decide) h2).elim⟩
    | 2, _ => exact ⟨1#16, rfl, fun ⟨w, h1, h2⟩ => by cases h1; exact (no_code (by decide) h2).elim⟩
    | 3, _ => exact ⟨0#16, rfl, fun _ => rfl⟩
  · rw [show outBit 0x8050#16 = 80 by decide]
    have hch : ch < 2 := hch
    match ch, hch with
    | 0, _ => exact ⟨0x7FFFFF, 0x100#16, ⟨0x7F#16, 0xFFFF#16, rfl, rfl, rfl, rfl⟩, by decide, by decide⟩
    | 1, _ => exact ⟨1, 0x200#16, ⟨0#16, 1#16, rfl, rfl, rfl, rfl⟩, by decide, by decide⟩
  · exact absurd rfl hno

/-- The images of the mixed coupler are complete. -/
example : CompleteImages exMixCfg exMixPi exMixPo := by
  obtain ⟨c', h⟩ := exMix_next
  exact (C69_needed true exMixCfg exMix exMix_reachable _ _ _ _ h).1

example : OutputAt exMixCfg 2 .UR20_2FCNT_100 [0#16, 0#16] 80 1 ∧ DisjointOutputs exMixCfg :=
  ⟨⟨0x8050#16, 0#16, ⟨rfl, rfl, rfl, rfl⟩, by decide, by decide, by decide, by decide, by decide⟩,
    exMix_disjoint⟩

end Ur20
