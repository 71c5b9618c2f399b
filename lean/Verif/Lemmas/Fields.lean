import Verif.Spec.Channels
import Verif.Lemmas.Encode

/-! Channel parameters of created modules, in terms of the parameter words. -/

namespace Ur20

open Spec Coupler

theorem getElem?_flatMap_block {α β : Type} (f : α → List β) (k : Nat) (hf : ∀ a, (f a).length = k)
    (l : List α) (i j : Nat) (hj : j < k) :
    (l.flatMap f)[k * i + j]? = (l[i]?).bind fun a => (f a)[j]? := by
  induction l generalizing i with
  | nil => simp
  | cons a l ih =>
    rw [List.flatMap_cons]
    cases i with
    | zero =>
      rw [List.getElem?_append_left (by rw [hf]; omega)]
      simp
    | succ i =>
      rw [List.getElem?_append_right (by rw [hf, Nat.mul_add]; omega), hf,
        show k * (i + 1) + j - k = k * i + j by rw [Nat.mul_add]; omega, ih]
      simp

/-- A register of a channel is among the registers of a module. -/
theorem fits_block {α : Type} {par : List Word} {s : Nat} {l : List α} {f : α → List (Word → Prop)}
    {k : Nat} (hf : ∀ a, (f a).length = k) (h : Fits par s (l.flatMap f)) {ch j : Nat} {a : α}
    {p : Word → Prop} (ha : l[ch]? = some a) (hp : (f a)[j]? = some p) :
    ∃ w, par[s + (k * ch + j)]? = some w ∧ p w := by
  refine (fits_iff _ _ _).1 h _ p ?_
  have hj : j < k := by rw [← hf a]; exact (List.getElem?_eq_some_iff.1 hp).1
  rw [getElem?_flatMap_block f k hf l ch j hj, ha]
  exact hp

theorem fits_tail {par : List Word} {s : Nat} {p : Word → Prop} {l : List (Word → Prop)}
    (h : Fits par s (p :: l)) : Fits par (s + 1) l := h.2

theorem ai_params {t : ModuleType} (ht : t = .UR20_4AI_UI_12 ∨ t = .UR20_4AI_UI_16)
    {par : List Word} {m : Module} (hc : Module.create t par = .ok m) :
    ∃ ps, analogInputs m = some ps ∧ ps.length = 4 ∧ ∀ ch, ch < 4 → ∃ f r,
      ps[ch]? = some (r, f) ∧ ParamIs par (1 + 2 * ch) f ∧ ParamIs par (1 + 2 * ch + 1) r := by
  obtain ⟨hg, hf⟩ := create_spec hc
  have : ∃ am, m = .ai am ∧ am.chParams.length = 4 := by
    rcases ht with rfl | rfl <;> cases m <;> simp only [IsCreated] at hg <;>
      exact ⟨_, rfl, hg.2⟩
  obtain ⟨am, rfl, hl⟩ := this
  refine ⟨_, rfl, by simpa using hl, fun ch hch => ?_⟩
  have hx : am.chParams[ch]? = some am.chParams[ch] := List.getElem?_eq_getElem (by omega)
  have hf' := fits_tail hf
  refine ⟨am.chParams[ch].dataFormat, am.chParams[ch].measurementRange, ?_, ?_, ?_⟩
  · rw [List.getElem?_map, hx]; rfl
  · exact fits_block (k := 2) (j := 0) (fun _ => rfl) hf' hx rfl
  · exact fits_block (k := 2) (j := 1) (fun _ => rfl) hf' hx rfl

theorem aiDiag_params {par : List Word} {m : Module}
    (hc : Module.create .UR20_4AI_UI_16_DIAG par = .ok m) :
    ∃ ps, analogInputs m = some ps ∧ ps.length = 4 ∧ ∀ ch, ch < 4 → ∃ f r,
      ps[ch]? = some (r, f) ∧ ParamIs par (1 + 5 * ch + 3) f ∧ ParamIs par (1 + 5 * ch + 4) r := by
  obtain ⟨hg, hf⟩ := create_spec hc
  have : ∃ am, m = .aiDiag am ∧ am.chParams.length = 4 := by
    cases m <;> simp only [IsCreated] at hg
    exact ⟨_, rfl, hg⟩
  obtain ⟨am, rfl, hl⟩ := this
  refine ⟨_, rfl, by simpa using hl, fun ch hch => ?_⟩
  have hx : am.chParams[ch]? = some am.chParams[ch] := List.getElem?_eq_getElem (by omega)
  have hf' := fits_tail hf
  refine ⟨am.chParams[ch].dataFormat, am.chParams[ch].measurementRange, ?_, ?_, ?_⟩
  · rw [List.getElem?_map, hx]; rfl
  · exact fits_block (k := 5) (j := 3) (fun _ => rfl) hf' hx rfl
  · exact fits_block (k := 5) (j := 4) (fun _ => rfl) hf' hx rfl

theorem aiI_params {par : List Word} {m : Module}
    (hc : Module.create .UR20_8AI_I_16_DIAG_HD par = .ok m) :
    ∃ ps, analogInputs m = some ps ∧ ps.length = 8 ∧ ∀ ch, ch < 8 → ∃ f, ∃ r : AnalogIRange,
      ps[ch]? = some (currentRange r, f) ∧ ParamIs par (1 + 4 * ch + 2) f ∧
      ParamIs par (1 + 4 * ch + 3) r := by
  obtain ⟨hg, hf⟩ := create_spec hc
  have : ∃ am, m = .aiI am ∧ am.chParams.length = 8 := by
    cases m <;> simp only [IsCreated] at hg
    exact ⟨_, rfl, hg⟩
  obtain ⟨am, rfl, hl⟩ := this
  refine ⟨_, rfl, by simpa using hl, fun ch hch => ?_⟩
  have hx : am.chParams[ch]? = some am.chParams[ch] := List.getElem?_eq_getElem (by omega)
  have hf' := fits_tail hf
  refine ⟨am.chParams[ch].dataFormat, am.chParams[ch].measurementRange, ?_, ?_, ?_⟩
  · rw [List.getElem?_map, hx]; rfl
  · exact fits_block (k := 4) (j := 2) (fun _ => rfl) hf' hx rfl
  · exact fits_block (k := 4) (j := 3) (fun _ => rfl) hf' hx rfl

theorem rtd_params {par : List Word} {m : Module}
    (hc : Module.create .UR20_4AI_RTD_DIAG par = .ok m) :
    ∃ rm, m = .rtd rm ∧ rm.chParams.length = 4 ∧ ∀ ch, ch < 4 → ∃ p,
      rm.chParams[ch]? = some p ∧ ParamIs par (1 + 7 * ch) p.measurementRange := by
  obtain ⟨hg, hf⟩ := create_spec hc
  have : ∃ am, m = .rtd am ∧ am.chParams.length = 4 := by
    cases m <;> simp only [IsCreated] at hg
    exact ⟨_, rfl, hg⟩
  obtain ⟨am, rfl, hl⟩ := this
  refine ⟨_, rfl, hl, fun ch hch => ?_⟩
  have hx : am.chParams[ch]? = some am.chParams[ch] := List.getElem?_eq_getElem (by omega)
  exact ⟨_, hx, fits_block (k := 7) (j := 0) (fun _ => rfl) (fits_tail hf) hx rfl⟩

theorem tc_params {par : List Word} {m : Module}
    (hc : Module.create .UR20_4AI_TC_DIAG par = .ok m) :
    ∃ tm, m = .tc tm ∧ tm.chParams.toList.length = 4 ∧ ∀ ch, ch < 4 → ∃ p,
      tm.chParams.toList[ch]? = some p ∧ ParamIs par (1 + 7 * ch) p.measurementRange := by
  obtain ⟨hg, hf⟩ := create_spec hc
  have : ∃ am, m = .tc am := by
    cases m <;> simp only [IsCreated] at hg
    exact ⟨_, rfl⟩
  obtain ⟨am, rfl⟩ := this
  have hl : am.chParams.toList.length = 4 := by simp
  refine ⟨_, rfl, hl, fun ch hch => ?_⟩
  have hx : am.chParams.toList[ch]? = some am.chParams.toList[ch] :=
    List.getElem?_eq_getElem (by omega)
  exact ⟨_, hx, fits_block (k := 7) (j := 0) (fun _ => rfl) (fits_tail hf) hx rfl⟩

theorem ao_params {par : List Word} {m : Module}
    (hc : Module.create .UR20_4AO_UI_16 par = .ok m) :
    ∃ ps, analogOutputs m = some ps ∧ ps.length = 4 ∧ ∀ ch, ch < 4 → ∃ f r,
      ps[ch]? = some (r, f) ∧ ParamIs par (3 * ch) f ∧ ParamIs par (3 * ch + 1) r := by
  obtain ⟨hg, hf⟩ := create_spec hc
  have : ∃ am, m = .ao am ∧ am.chParams.length = 4 := by
    cases m <;> simp only [IsCreated] at hg
    exact ⟨_, rfl, hg⟩
  obtain ⟨am, rfl, hl⟩ := this
  refine ⟨_, rfl, by simpa using hl, fun ch hch => ?_⟩
  have hx : am.chParams[ch]? = some am.chParams[ch] := List.getElem?_eq_getElem (by omega)
  refine ⟨am.chParams[ch].dataFormat, am.chParams[ch].outputRange, ?_, ?_, ?_⟩
  · rw [List.getElem?_map, hx]; rfl
  · have := fits_block (k := 3) (j := 0) (fun _ => rfl) hf hx rfl
    rwa [Nat.zero_add] at this
  · have := fits_block (k := 3) (j := 1) (fun _ => rfl) hf hx rfl
    rwa [Nat.zero_add] at this

theorem aoDiag_params {par : List Word} {m : Module}
    (hc : Module.create .UR20_4AO_UI_16_DIAG par = .ok m) :
    ∃ ps, analogOutputs m = some ps ∧ ps.length = 4 ∧ ∀ ch, ch < 4 → ∃ f r,
      ps[ch]? = some (r, f) ∧ ParamIs par (4 * ch) f ∧ ParamIs par (4 * ch + 1) r := by
  obtain ⟨hg, hf⟩ := create_spec hc
  have : ∃ am, m = .aoDiag am ∧ am.chParams.length = 4 := by
    cases m <;> simp only [IsCreated] at hg
    exact ⟨_, rfl, hg⟩
  obtain ⟨am, rfl, hl⟩ := this
  refine ⟨_, rfl, by simpa using hl, fun ch hch => ?_⟩
  have hx : am.chParams[ch]? = some am.chParams[ch] := List.getElem?_eq_getElem (by omega)
  refine ⟨am.chParams[ch].dataFormat, am.chParams[ch].outputRange, ?_, ?_, ?_⟩
  · rw [List.getElem?_map, hx]; rfl
  · have := fits_block (k := 4) (j := 0) (fun _ => rfl) hf hx rfl
    rwa [Nat.zero_add] at this
  · have := fits_block (k := 4) (j := 1) (fun _ => rfl) hf hx rfl
    rwa [Nat.zero_add] at this

theorem di_channels {t : ModuleType} (ht : t = .UR20_4DI_P ∨ t = .UR20_8DI_P_2W)
    {par : List Word} {m : Module} (hc : Module.create t par = .ok m) :
    digitalInputs m = some (inputChannels t) := by
  have hg := create_good hc
  rcases ht with rfl | rfl <;> cases m <;> simp only [IsCreated] at hg <;> rename_i dm <;>
    obtain ⟨v, ps⟩ := dm <;> obtain ⟨rfl, -⟩ := hg <;> rfl

theorem do_channels {t : ModuleType} (ht : t = .UR20_4DO_P ∨ t = .UR20_4DO_P_2A ∨ t = .UR20_8DO_P ∨
    t = .UR20_16DO_P ∨ t = .UR20_4RO_CO_255)
    {par : List Word} {m : Module} (hc : Module.create t par = .ok m) :
    digitalOutputs m = some (outputChannels t) := by
  have hg := create_good hc
  rcases ht with rfl | rfl | rfl | rfl | rfl <;> cases m <;> simp only [IsCreated] at hg <;>
    first
      | rfl
      | (rename_i dm; obtain ⟨v, ps⟩ := dm; obtain ⟨rfl, -⟩ := hg; rfl)

theorem fcnt_params {par : List Word} {m : Module}
    (hc : Module.create .UR20_2FCNT_100 par = .ok m) :
    ∃ fm, m = .fcnt fm ∧ fm.chParams.length = 2 := by
  have hg := create_good hc
  cases m <;> simp only [IsCreated] at hg
  exact ⟨_, rfl, hg⟩

theorem sil_module {par : List Word} {m : Module}
    (hc : Module.create .UR20_PF_O_1DI_SIL par = .ok m) : m = .sil := by
  have hg := create_good hc
  cases m <;> simp only [IsCreated] at hg
  rfl

end Ur20
