import Verif.Spec.Edited
import Verif.Props.Settings
import Verif.Lemmas.Coupler
import Verif.Props.Coupler

/-!
# C104 and C105: modules whose settings were edited, and settings that make no difference
-/

namespace Ur20

open Spec

namespace EditedProof

theorem idx_congr {α β γ : Type} {f : α → β} {l l' : List α} (h : l.map f = l'.map f) (g : β → Res γ)
    (i : Nat) : ((idx l i).bind fun c => g (f c)) = (idx l' i).bind fun c => g (f c) := by
  have := congrArg (·[i]?) h
  simp only [List.getElem?_map] at this
  unfold idx
  cases h1 : l[i]? with
  | none =>
    cases h2 : l'[i]? with
    | none => rfl
    | some b => rw [h1, h2] at this; cases this
  | some a =>
    cases h2 : l'[i]? with
    | none => rw [h1, h2] at this; cases this
    | some b =>
      rw [h1, h2] at this
      simp only [Option.map_some, Option.some.injEq] at this
      simp only [Res.bind, this]

theorem len_congr {α β : Type} {f : α → β} {l l' : List α} (h : l.map f = l'.map f) :
    l.length = l'.length := by simpa using congrArg List.length h

theorem tcValue_congr (w : Word) {c c' : Tc.ChannelParameters}
    (h : c.measurementRange = c'.measurementRange) : Tc.value w c = Tc.value w c' := by
  unfold Tc.value Tc.ChannelParameters.isEnabled
  rw [h]

theorem zipWith_tc (ws : List Word) : ∀ (l l' : List Tc.ChannelParameters),
    l.map (·.measurementRange) = l'.map (·.measurementRange) →
      List.zipWith Tc.value ws l = List.zipWith Tc.value ws l' := by
  induction ws with
  | nil => intros; rfl
  | cons w ws ih =>
    intro l l' h
    cases l <;> cases l' <;> simp only [List.map_cons, List.map_nil, List.cons.injEq,
      reduceCtorEq] at h
    · rfl
    · simp only [List.zipWith_cons_cons]
      rw [tcValue_congr w h.1, ih _ _ h.2]

end EditedProof

open EditedProof

/-- The settings that do not take part in conversions make no difference for a module. -/
theorem C105_module (m m' : Module) (h : SameConversion m m') : SameWork m m' := by
  cases m <;> cases m' <;> simp only [SameConversion] at h
  case di.di m m' =>
    obtain ⟨v, ps⟩ := m
    obtain ⟨v', ps'⟩ := m'
    cases h
    exact ⟨rfl, rfl, rfl, fun _ => rfl, fun _ => rfl, fun _ => rfl⟩
  case dout.dout m m' =>
    obtain ⟨v, ps⟩ := m
    obtain ⟨v', ps'⟩ := m'
    cases h
    exact ⟨rfl, rfl, rfl, fun _ => rfl, fun _ => rfl, fun _ => rfl⟩
  case do16.do16 => exact ⟨rfl, rfl, rfl, fun _ => rfl, fun _ => rfl, fun _ => rfl⟩
  case ro.ro m m' => exact ⟨rfl, rfl, rfl, fun _ => rfl, fun _ => rfl, fun _ => rfl⟩
  case sil.sil => exact ⟨rfl, rfl, rfl, fun _ => rfl, fun _ => rfl, fun _ => rfl⟩
  case ao.ao m m' =>
    refine ⟨rfl, rfl, rfl, fun _ => rfl, fun ws => ?_, fun vs => ?_⟩
    · simp only [Module.processOutputData, Ao.Mod.processOutputData, Res.bind_eq]
      congr 2
      funext p
      exact idx_congr h (fun q => pure (decimalOrDisabled (u16ToAnalogUiValue p.1 q.1 q.2))) p.2
    · simp only [Module.processOutputValues, Ao.Mod.processOutputValues, Res.bind_eq, len_congr h]
      congr 2
      congr 1
      funext p
      exact idx_congr h (fun q => valueToU16 p.1 q.1 q.2) p.2
  case aoDiag.aoDiag m m' =>
    refine ⟨rfl, rfl, rfl, fun _ => rfl, fun ws => ?_, fun vs => ?_⟩
    · simp only [Module.processOutputData, AoDiag.Mod.processOutputData, Res.bind_eq]
      congr 2
      funext p
      exact idx_congr h (fun q => pure (decimalOrDisabled (u16ToAnalogUiValue p.1 q.1 q.2))) p.2
    · simp only [Module.processOutputValues, AoDiag.Mod.processOutputValues, Res.bind_eq, len_congr h]
      congr 2
      congr 1
      funext p
      exact idx_congr h (fun q => valueToU16 p.1 q.1 q.2) p.2
  case rtd.rtd m m' =>
    refine ⟨rfl, rfl, rfl, fun ws => ?_, fun _ => rfl, fun _ => rfl⟩
    simp only [Module.processInputData, Rtd.Mod.processInputData, Res.bind_eq, len_congr h]
    congr 2
    congr 1
    funext i
    congr 1
    funext w
    exact idx_congr h (fun q => pure (decimalOrDisabled (u16ToRtdValue w q))) i
  case aiDiag.aiDiag m m' =>
    refine ⟨rfl, rfl, rfl, fun ws => ?_, fun _ => rfl, fun _ => rfl⟩
    simp only [Module.processInputData, AiDiag.Mod.processInputData, Res.bind_eq, len_congr h]
    congr 2
    congr 1
    funext i
    congr 1
    funext w
    exact idx_congr h (fun q => pure (decimalOrDisabled (u16ToAnalogUiValue w q.1 q.2))) i
  case ai.ai m m' =>
    obtain ⟨v, d, ps⟩ := m
    obtain ⟨v', d', ps'⟩ := m'
    obtain ⟨h1, h2⟩ := h
    simp only at h1 h2
    subst h1
    refine ⟨rfl, rfl, rfl, fun ws => ?_, fun _ => rfl, fun _ => rfl⟩
    simp only [Module.processInputData, Ai.Mod.processInputData, Res.bind_eq, len_congr h2]
    congr 2
    congr 1
    funext i
    congr 1
    funext w
    exact idx_congr h2 (fun q => pure (decimalOrDisabled (u16ToAnalogUiValue w q.1 q.2))) i
  case aiI.aiI m m' =>
    refine ⟨rfl, rfl, rfl, fun ws => ?_, fun _ => rfl, fun _ => rfl⟩
    simp only [Module.processInputData, AiI.Mod.processInputData, Res.bind_eq, len_congr h]
    congr 2
    congr 1
    funext i
    congr 1
    funext w
    exact idx_congr h (fun q => pure (AiI.value w q.1 q.2)) i
  case tc.tc m m' =>
    refine ⟨rfl, rfl, rfl, fun ws => ?_, fun _ => rfl, fun _ => rfl⟩
    simp only [Module.processInputData, Tc.Mod.processInputData, zipWith_tc ws _ _ h]
  case fcnt.fcnt m m' =>
    refine ⟨rfl, rfl, rfl, fun ws => ?_, fun _ => rfl, fun vs => ?_⟩
    · simp only [Module.processInputData, Fcnt.Mod.processInputData, h]
    · simp only [Module.processOutputValues, Fcnt.Mod.processOutputValues, h]
  case com.com m m' =>
    obtain ⟨l, ps⟩ := m
    obtain ⟨l', ps'⟩ := m'
    cases h
    exact ⟨rfl, rfl, rfl, fun _ => rfl, fun _ => rfl, fun _ => rfl⟩

/-- The full statement of C104: no method of a module panics, whatever its settings are. -/
def C104_statement : Prop :=
  ∀ m : Module, (∀ ws, m.processInputData ws ≠ .panic) ∧ (∀ ws, m.processOutputData ws ≠ .panic) ∧
    ∀ vs, m.processOutputValues vs ≠ .panic

/-- C104 does not hold: an analog output module without channel parameters panics when it decodes
four registers. -/
theorem C104_statement_false : ¬ C104_statement := by
  intro h
  exact (h (.ao ⟨[]⟩)).2.1 [0, 0, 0, 0] (by decide)

private theorem decode_panics {α : Type} {ps : List α} {f : Word → α → ChannelValue} {ws : List Word}
    (hl : ws.length = 4) :
    mapRes (fun (p : Word × Nat) => (idx ps p.2).bind fun c => .ok (f p.1 c)) ws.zipIdx = .panic ↔
      ps.length < 4 := by
  constructor
  · intro h
    obtain ⟨p, hp, he⟩ := mapRes_panic_mem h
    have := List.snd_lt_of_mem_zipIdx hp
    simp only [Res.bind_eq_panic, idx_eq_panic] at he
    rcases he with he | ⟨_, _, he⟩
    · omega
    · cases he
  · intro h
    obtain ⟨w, hw⟩ : ∃ w, ws[ps.length]? = some w := ⟨_, List.getElem?_eq_getElem (by omega)⟩
    cases hr : mapRes (fun (p : Word × Nat) => (idx ps p.2).bind fun c => .ok (f p.1 c))
        ws.zipIdx with
    | ok vs =>
      obtain ⟨v, -, hv⟩ := mapRes_getElem? hr (i := ps.length) (a := (w, ps.length)) (by simp [hw])
      rw [idx_eq_panic.2 (Nat.le_refl _)] at hv
      cases hv
    | err e =>
      obtain ⟨p, -, he⟩ := mapRes_err_mem hr
      simp only [Res.bind_eq_err, reduceCtorEq, and_false, exists_false, or_false] at he
      exact absurd he idx_ne_err
    | panic => rfl

/-- C104, what holds: the only panic is that of an analog output module with fewer than four
parameter sets that decodes four registers. Missing: this case. -/
theorem C104_panics_partial (m : Module) :
    (∀ ws, m.processInputData ws ≠ .panic) ∧ (∀ vs, m.processOutputValues vs ≠ .panic) ∧
    ∀ ws, m.processOutputData ws = .panic ↔
      IsAnalogOutput m ∧ parameterSets m < 4 ∧ ws.length = 4 := by
  refine ⟨m.processInputData_ne_panic, m.processOutputValues_ne_panic, fun ws => ?_⟩
  cases m
  case ao m =>
    simp only [IsAnalogOutput, parameterSets, true_and, Module.processOutputData,
      Ao.Mod.processOutputData, Res.bind_eq, Res.pure_eq]
    by_cases hl : ws.length = 4
    · rw [if_neg (by simpa using hl), decode_panics (ps := m.chParams) (f := fun w c =>
        decimalOrDisabled (u16ToAnalogUiValue w c.outputRange c.dataFormat)) hl]
      simp [hl]
    · simp [hl]
  case aoDiag m =>
    simp only [IsAnalogOutput, parameterSets, true_and, Module.processOutputData,
      AoDiag.Mod.processOutputData, Res.bind_eq, Res.pure_eq]
    by_cases hl : ws.length = 4
    · rw [if_neg (by simpa using hl), decode_panics (ps := m.chParams) (f := fun w c =>
        decimalOrDisabled (u16ToAnalogUiValue w c.outputRange c.dataFormat)) hl]
      simp [hl]
    · simp [hl]
  all_goals
    simp only [IsAnalogOutput, false_and, iff_false]
  case dout m =>
    rw [Module.processOutputData]
    unfold Do.Mod.processOutputData
    split
    · simp
    · rw [idx_of_lt (by omega)]; simp
  case ro m =>
    rw [Module.processOutputData]
    unfold Ro.processOutputData
    split
    · simp
    · rw [idx_of_lt (by omega)]; simp
  case do16 => exact Module.processOutputData_ne_panic .do16 ⟨.UR20_16DO_P, trivial⟩ ws
  case aiDiag m =>
    rw [Module.processOutputData]
    unfold AiDiag.Mod.processOutputData
    split <;> simp
  case fcnt m =>
    rw [Module.processOutputData]
    unfold Fcnt.Mod.processOutputData
    split
    · simp
    · exact mapRes_ne_panic fun i hi => Fcnt.outputChannel_ne_panic (by omega)
        (List.mem_range.1 hi)
  case com m =>
    simp only [Module.processOutputData, Com.Mod.processOutputData, Res.bind_eq, Res.pure_eq,
      Res.bind_eq_panic]
    rintro (h | ⟨a, -, h⟩)
    · exact Com.rsOutFromBytes_ne_panic _ h
    · cases h
  all_goals exact defaultProcessData_ne_panic

example : (Module.ao ⟨[⟨.S7, .V0To10, .fin 0⟩]⟩).processOutputData [0, 0, 0, 0] = .panic ∧
    (Module.ao ⟨[⟨.S7, .V0To10, .fin 0⟩]⟩).processOutputData [0, 0, 0] = .err .bufferLength ∧
    (Module.ao ⟨[⟨.S7, .V0To10, .fin 0⟩]⟩).processOutputValues (List.replicate 4 .disabled) =
      .err .channelParameter := by decide

/-- C104: modules that need one parameter set per channel and have another number reject all data:
registers or values of the wrong number as always, the others with `ChannelParameter`. -/
theorem C104_wrong_number (m : Module) (h : parameterSets m ≠ m.moduleType.channelCount) :
    (ChecksInputs m → ∀ ws : List Word, m.processInputData ws =
      if 2 * ws.length = m.inputByteCount then .err .channelParameter else .err .bufferLength) ∧
    (ChecksOutputs m → ∀ vs : List ChannelValue, m.processOutputValues vs =
      if vs.length = m.moduleType.channelCount then .err .channelParameter
      else .err .channelValue) := by
  constructor
  · intro hc ws
    cases m <;> simp only [ChecksInputs] at hc <;> simp only [parameterSets] at h
    case rtd m =>
      change m.chParams.length ≠ 4 at h
      change m.processInputData ws = if 2 * ws.length = 8 then _ else _
      unfold Rtd.Mod.processInputData
      by_cases hl : ws.length = 4
      · rw [if_neg (by simpa using hl), if_pos h, if_pos (by omega)]
      · rw [if_pos hl, if_neg (by omega)]
    case aiDiag m =>
      change m.chParams.length ≠ 4 at h
      change m.processInputData ws = if 2 * ws.length = 8 then _ else _
      unfold AiDiag.Mod.processInputData
      by_cases hl : ws.length = 4
      · rw [if_neg (by simpa using hl), if_pos h, if_pos (by omega)]
      · rw [if_pos hl, if_neg (by omega)]
    case ai m =>
      obtain ⟨v, d, ps⟩ := m
      have h4 : v.moduleType.channelCount = 4 := by cases v <;> rfl
      have h4' : (Module.ai ⟨v, d, ps⟩).moduleType.channelCount = 4 := by cases v <;> rfl
      have h8 : (Module.ai ⟨v, d, ps⟩).inputByteCount = 8 := by cases v <;> rfl
      rw [h4'] at h
      simp only [Module.processInputData, Ai.Mod.processInputData, h8, h4]
      simp only at h
      by_cases hl : ws.length = 4
      · rw [if_neg (by simpa using hl), if_pos h, if_pos (by omega)]
      · rw [if_pos hl, if_neg (by omega)]
    case aiI m =>
      change m.chParams.length ≠ 8 at h
      change m.processInputData ws = if 2 * ws.length = 16 then _ else _
      unfold AiI.Mod.processInputData
      by_cases hl : ws.length = 8
      · rw [if_neg (by simpa using hl), if_pos h, if_pos (by omega)]
      · rw [if_pos hl, if_neg (by omega)]
    case fcnt m =>
      change m.chParams.length ≠ 2 at h
      change m.processInputData ws = if 2 * ws.length = 20 then _ else _
      unfold Fcnt.Mod.processInputData
      by_cases hl : ws.length = 10
      · rw [if_neg (by simpa using hl), if_pos h, if_pos (by omega)]
      · rw [if_pos hl, if_neg (by omega)]
  · intro hc vs
    cases m <;> simp only [ChecksOutputs] at hc <;> simp only [parameterSets] at h
    case ao m =>
      change m.chParams.length ≠ 4 at h
      change m.processOutputValues vs = if vs.length = 4 then _ else _
      unfold Ao.Mod.processOutputValues
      by_cases hl : vs.length = 4
      · rw [if_neg (by simpa using hl), if_pos h, if_pos hl]
      · rw [if_pos hl, if_neg hl]
    case aoDiag m =>
      change m.chParams.length ≠ 4 at h
      change m.processOutputValues vs = if vs.length = 4 then _ else _
      unfold AoDiag.Mod.processOutputValues
      by_cases hl : vs.length = 4
      · rw [if_neg (by simpa using hl), if_pos h, if_pos hl]
      · rw [if_pos hl, if_neg hl]
    case fcnt m =>
      change m.chParams.length ≠ 2 at h
      change m.processOutputValues vs = if vs.length = 2 then _ else _
      unfold Fcnt.Mod.processOutputValues
      have h2 : ModuleType.UR20_2FCNT_100.channelCount = 2 := rfl
      rw [h2]
      by_cases hl : vs.length = 2
      · rw [if_neg (by simpa using hl), if_pos h, if_pos hl]
      · rw [if_pos hl, if_neg hl]

example : parameterSets (.fcnt ⟨[]⟩) ≠ (Module.fcnt ⟨[]⟩).moduleType.channelCount ∧
    ChecksInputs (.fcnt ⟨[]⟩) ∧ ChecksOutputs (.fcnt ⟨[]⟩) ∧
    (Module.fcnt ⟨[]⟩).processInputData (List.replicate 10 0) = .err .channelParameter :=
  ⟨by decide, trivial, trivial, by decide⟩

namespace EditedProof

/-- the settings without what registers may be unable to hold -/
def plain : Module → Module
  | .rtd m => .rtd ⟨m.temperatureUnit, m.chParams.map fun c =>
      { c with highLimitValue := 0, lowLimitValue := 0 }⟩
  | .tc m => .tc ⟨m.temperatureUnit, m.chParams.map fun c =>
      { c with highLimitValue := 0, lowLimitValue := 0 }⟩
  | .ao m => .ao ⟨m.chParams.map fun c => { c with
      substituteValue := (u16ToAnalogUiValue 0 c.outputRange c.dataFormat).getD (.fin 0) }⟩
  | .aoDiag m => .aoDiag ⟨m.chParams.map fun c => { c with
      substituteValue := (u16ToAnalogUiValue 0 c.outputRange c.dataFormat).getD (.fin 0) }⟩
  | m => m

theorem plain_sub (r : AnalogUIRange) (f : DataFormat) :
    SubstituteOk r f ((u16ToAnalogUiValue 0 r f).getD (.fin 0)) := by
  unfold SubstituteOk
  split
  · rename_i h; subst h; rfl
  · exact ⟨0, by cases r <;> first | rfl | contradiction⟩

theorem plain_representable (m : Module) : Representable (plain m) := by
  have h0 : Fits16 0 := by unfold Fits16; omega
  cases m <;> simp only [plain, Representable] <;> try trivial
  case rtd m => simp [h0]
  case tc m => simp [h0]
  case ao m =>
    intro c hc
    obtain ⟨c, -, rfl⟩ := List.mem_map.1 hc
    exact plain_sub _ _
  case aoDiag m =>
    intro c hc
    obtain ⟨c, -, rfl⟩ := List.mem_map.1 hc
    exact plain_sub _ _

theorem plain_settings {t : ModuleType} {m : Module} (h : SettingsOf t m) : SettingsOf t (plain m) := by
  cases t <;> cases m <;> simp only [SettingsOf] at h <;> simp_all [SettingsOf, plain]

theorem plain_same (m : Module) : SameConversion m (plain m) := by
  cases m <;> simp [SameConversion, plain, Function.comp_def, ← Vector.toList_map]

end EditedProof

/-- C104: a module with one parameter set per channel does what some module does that was created
from parameter registers, whatever its settings are. -/
theorem C104_settings (t : ModuleType) (ms : List Nat) (ht : maxCodes t = some ms) (m : Module)
    (h : SettingsOf t m) :
    ∃ ws m', ws.length = ms.length ∧ Module.create t ws = .ok m' ∧ SameConversion m m' ∧
      SameWork m m' := by
  obtain ⟨ws, hl, hc⟩ := (C96_range t ms ht (plain m)).1.2
    ⟨plain_settings h, plain_representable m⟩
  exact ⟨ws, _, hl, hc, plain_same m, C105_module _ _ (plain_same m)⟩

/-- A module that no registers stand for. -/
example : SettingsOf .UR20_4AI_RTD_DIAG (.rtd ⟨.Celsius, List.replicate 4
      ⟨.PT100, .TwoWire, .ms80, false, true, 100000, -100000⟩⟩) ∧
    ¬ Representable (.rtd ⟨.Celsius, List.replicate 4
      ⟨.PT100, .TwoWire, .ms80, false, true, 100000, -100000⟩⟩) := by
  refine ⟨by simp [SettingsOf], fun h => ?_⟩
  have := (h _ List.mem_cons_self).1.2
  simp at this

namespace EditedProof

theorem same_of_holds {α : Type} [Coded α] (hinj : ∀ a b : α, code a = code b → a = b) {a b : α}
    {ws ws' : List Word} {i : Nat} (ha : ∃ w, ws[i]? = some w ∧ holds a w)
    (hb : ∃ w, ws'[i]? = some w ∧ holds b w) (h : ws[i]? = ws'[i]?) : a = b := by
  obtain ⟨w, h1, h2⟩ := ha
  obtain ⟨w', h3, h4⟩ := hb
  rw [h1, h3] at h
  cases h
  exact hinj a b (h2.symm.trans h4)

theorem inj_format (a b : DataFormat) (h : code a = code b) : a = b := C11_codes_injective.2.1 a b h
theorem inj_ui (a b : AnalogUIRange) (h : code a = code b) : a = b :=
  C11_codes_injective.2.2.1 a b h
theorem inj_i (a b : AnalogIRange) (h : code a = code b) : a = b :=
  C11_codes_injective.2.2.2.1 a b h
theorem inj_rtd (a b : RtdRange) (h : code a = code b) : a = b :=
  C11_codes_injective.2.2.2.2.1 a b h
theorem inj_tc (a b : TcRange) (h : code a = code b) : a = b :=
  C11_codes_injective.2.2.2.2.2.2.2.2.2.2.2.1 a b h
theorem inj_len (a b : ProcessDataLength) (h : code a = code b) : a = b :=
  C11_codes_injective.2.2.2.2.2.2.2.2.2.2.2.2.2.2.2.2.2.2.2 a b h

theorem len4 {α : Type} {l : List α} (h : l.length = 4) : ∃ a b c d, l = [a, b, c, d] := by
  match l, h with
  | [a, b, c, d], _ => exact ⟨a, b, c, d, rfl⟩

theorem len8 {α : Type} {l : List α} (h : l.length = 8) :
    ∃ a b c d e f g k, l = [a, b, c, d, e, f, g, k] := by
  match l, h with
  | [a, b, c, d, e, f, g, k], _ => exact ⟨a, b, c, d, e, f, g, k, rfl⟩

set_option maxHeartbeats 2000000 in
theorem created_same {t : ModuleType} {ws ws' : List Word} {m m' : Module}
    (hc : Module.create t ws = .ok m) (hc' : Module.create t ws' = .ok m')
    (hs : ∀ i ∈ conversionRegisters t, ws[i]? = ws'[i]?) : SameConversion m m' := by
  obtain ⟨hm, h⟩ := create_spec hc
  obtain ⟨hm', h'⟩ := create_spec hc'
  simp only [fits_iff, Nat.zero_add] at h h'
  clear hc hc'
  cases t <;> cases m <;> simp only [IsCreated] at hm <;> cases m' <;>
    simp only [IsCreated] at hm'
  case UR20_4DI_P.di.di m m' => exact hm.1.trans hm'.1.symm
  case UR20_8DI_P_2W.di.di m m' => exact hm.1.trans hm'.1.symm
  case UR20_4DO_P.dout.dout m m' => exact hm.1.trans hm'.1.symm
  case UR20_4DO_P_2A.dout.dout m m' => exact hm.1.trans hm'.1.symm
  case UR20_8DO_P.dout.dout m m' => exact hm.1.trans hm'.1.symm
  case UR20_16DO_P.do16.do16 => trivial
  case UR20_4RO_CO_255.ro.ro m m' => trivial
  case UR20_PF_O_1DI_SIL.sil.sil => trivial
  case UR20_2FCNT_100.fcnt.fcnt m m' => exact hm.trans hm'.symm
  case UR20_1COM_232_485_422.com.com m m' =>
    exact same_of_holds inj_len (h 0 _ rfl) (h' 0 _ rfl) (hs 0 (by decide))
  case UR20_4AO_UI_16.ao.ao m m' =>
    obtain ⟨ps⟩ := m
    obtain ⟨ps'⟩ := m'
    obtain ⟨c0, c1, c2, c3, rfl⟩ := len4 hm
    obtain ⟨d0, d1, d2, d3, rfl⟩ := len4 hm'
    have r0 : c0.outputRange = d0.outputRange :=
      same_of_holds inj_ui (h 1 _ rfl) (h' 1 _ rfl) (hs 1 (by decide))
    have f0 : c0.dataFormat = d0.dataFormat :=
      same_of_holds inj_format (h 0 _ rfl) (h' 0 _ rfl) (hs 0 (by decide))
    have r1 : c1.outputRange = d1.outputRange :=
      same_of_holds inj_ui (h 4 _ rfl) (h' 4 _ rfl) (hs 4 (by decide))
    have f1 : c1.dataFormat = d1.dataFormat :=
      same_of_holds inj_format (h 3 _ rfl) (h' 3 _ rfl) (hs 3 (by decide))
    have r2 : c2.outputRange = d2.outputRange :=
      same_of_holds inj_ui (h 7 _ rfl) (h' 7 _ rfl) (hs 7 (by decide))
    have f2 : c2.dataFormat = d2.dataFormat :=
      same_of_holds inj_format (h 6 _ rfl) (h' 6 _ rfl) (hs 6 (by decide))
    have r3 : c3.outputRange = d3.outputRange :=
      same_of_holds inj_ui (h 10 _ rfl) (h' 10 _ rfl) (hs 10 (by decide))
    have f3 : c3.dataFormat = d3.dataFormat :=
      same_of_holds inj_format (h 9 _ rfl) (h' 9 _ rfl) (hs 9 (by decide))
    simp only [SameConversion, List.map_cons, List.map_nil, r0, f0, r1, f1, r2, f2, r3, f3]
  case UR20_4AO_UI_16_DIAG.aoDiag.aoDiag m m' =>
    obtain ⟨ps⟩ := m
    obtain ⟨ps'⟩ := m'
    obtain ⟨c0, c1, c2, c3, rfl⟩ := len4 hm
    obtain ⟨d0, d1, d2, d3, rfl⟩ := len4 hm'
    have r0 : c0.outputRange = d0.outputRange :=
      same_of_holds inj_ui (h 1 _ rfl) (h' 1 _ rfl) (hs 1 (by decide))
    have f0 : c0.dataFormat = d0.dataFormat :=
      same_of_holds inj_format (h 0 _ rfl) (h' 0 _ rfl) (hs 0 (by decide))
    have r1 : c1.outputRange = d1.outputRange :=
      same_of_holds inj_ui (h 5 _ rfl) (h' 5 _ rfl) (hs 5 (by decide))
    have f1 : c1.dataFormat = d1.dataFormat :=
      same_of_holds inj_format (h 4 _ rfl) (h' 4 _ rfl) (hs 4 (by decide))
    have r2 : c2.outputRange = d2.outputRange :=
      same_of_holds inj_ui (h 9 _ rfl) (h' 9 _ rfl) (hs 9 (by decide))
    have f2 : c2.dataFormat = d2.dataFormat :=
      same_of_holds inj_format (h 8 _ rfl) (h' 8 _ rfl) (hs 8 (by decide))
    have r3 : c3.outputRange = d3.outputRange :=
      same_of_holds inj_ui (h 13 _ rfl) (h' 13 _ rfl) (hs 13 (by decide))
    have f3 : c3.dataFormat = d3.dataFormat :=
      same_of_holds inj_format (h 12 _ rfl) (h' 12 _ rfl) (hs 12 (by decide))
    simp only [SameConversion, List.map_cons, List.map_nil, r0, f0, r1, f1, r2, f2, r3, f3]
  case UR20_4AI_RTD_DIAG.rtd.rtd m m' =>
    obtain ⟨d, ps⟩ := m
    obtain ⟨d', ps'⟩ := m'
    obtain ⟨c0, c1, c2, c3, rfl⟩ := len4 hm
    obtain ⟨d0, d1, d2, d3, rfl⟩ := len4 hm'
    have r0 : c0.measurementRange = d0.measurementRange :=
      same_of_holds inj_rtd (h 1 _ rfl) (h' 1 _ rfl) (hs 1 (by decide))
    have r1 : c1.measurementRange = d1.measurementRange :=
      same_of_holds inj_rtd (h 8 _ rfl) (h' 8 _ rfl) (hs 8 (by decide))
    have r2 : c2.measurementRange = d2.measurementRange :=
      same_of_holds inj_rtd (h 15 _ rfl) (h' 15 _ rfl) (hs 15 (by decide))
    have r3 : c3.measurementRange = d3.measurementRange :=
      same_of_holds inj_rtd (h 22 _ rfl) (h' 22 _ rfl) (hs 22 (by decide))
    simp only [SameConversion, List.map_cons, List.map_nil, r0, r1, r2, r3]
  case UR20_4AI_UI_16_DIAG.aiDiag.aiDiag m m' =>
    obtain ⟨d, ps⟩ := m
    obtain ⟨d', ps'⟩ := m'
    obtain ⟨c0, c1, c2, c3, rfl⟩ := len4 hm
    obtain ⟨d0, d1, d2, d3, rfl⟩ := len4 hm'
    have r0 : c0.measurementRange = d0.measurementRange :=
      same_of_holds inj_ui (h 5 _ rfl) (h' 5 _ rfl) (hs 5 (by decide))
    have f0 : c0.dataFormat = d0.dataFormat :=
      same_of_holds inj_format (h 4 _ rfl) (h' 4 _ rfl) (hs 4 (by decide))
    have r1 : c1.measurementRange = d1.measurementRange :=
      same_of_holds inj_ui (h 10 _ rfl) (h' 10 _ rfl) (hs 10 (by decide))
    have f1 : c1.dataFormat = d1.dataFormat :=
      same_of_holds inj_format (h 9 _ rfl) (h' 9 _ rfl) (hs 9 (by decide))
    have r2 : c2.measurementRange = d2.measurementRange :=
      same_of_holds inj_ui (h 15 _ rfl) (h' 15 _ rfl) (hs 15 (by decide))
    have f2 : c2.dataFormat = d2.dataFormat :=
      same_of_holds inj_format (h 14 _ rfl) (h' 14 _ rfl) (hs 14 (by decide))
    have r3 : c3.measurementRange = d3.measurementRange :=
      same_of_holds inj_ui (h 20 _ rfl) (h' 20 _ rfl) (hs 20 (by decide))
    have f3 : c3.dataFormat = d3.dataFormat :=
      same_of_holds inj_format (h 19 _ rfl) (h' 19 _ rfl) (hs 19 (by decide))
    simp only [SameConversion, List.map_cons, List.map_nil, r0, f0, r1, f1, r2, f2, r3, f3]
  case UR20_4AI_UI_12.ai.ai m m' =>
    obtain ⟨v, d, ps⟩ := m
    obtain ⟨v', d', ps'⟩ := m'
    obtain ⟨c0, c1, c2, c3, rfl⟩ := len4 hm.2
    obtain ⟨d0, d1, d2, d3, rfl⟩ := len4 hm'.2
    have r0 : c0.measurementRange = d0.measurementRange :=
      same_of_holds inj_ui (h 2 _ rfl) (h' 2 _ rfl) (hs 2 (by decide))
    have f0 : c0.dataFormat = d0.dataFormat :=
      same_of_holds inj_format (h 1 _ rfl) (h' 1 _ rfl) (hs 1 (by decide))
    have r1 : c1.measurementRange = d1.measurementRange :=
      same_of_holds inj_ui (h 4 _ rfl) (h' 4 _ rfl) (hs 4 (by decide))
    have f1 : c1.dataFormat = d1.dataFormat :=
      same_of_holds inj_format (h 3 _ rfl) (h' 3 _ rfl) (hs 3 (by decide))
    have r2 : c2.measurementRange = d2.measurementRange :=
      same_of_holds inj_ui (h 6 _ rfl) (h' 6 _ rfl) (hs 6 (by decide))
    have f2 : c2.dataFormat = d2.dataFormat :=
      same_of_holds inj_format (h 5 _ rfl) (h' 5 _ rfl) (hs 5 (by decide))
    have r3 : c3.measurementRange = d3.measurementRange :=
      same_of_holds inj_ui (h 8 _ rfl) (h' 8 _ rfl) (hs 8 (by decide))
    have f3 : c3.dataFormat = d3.dataFormat :=
      same_of_holds inj_format (h 7 _ rfl) (h' 7 _ rfl) (hs 7 (by decide))
    exact ⟨hm.1.trans hm'.1.symm, by simp only [List.map_cons, List.map_nil, r0, f0, r1, f1, r2, f2, r3, f3]⟩
  case UR20_4AI_UI_16.ai.ai m m' =>
    obtain ⟨v, d, ps⟩ := m
    obtain ⟨v', d', ps'⟩ := m'
    obtain ⟨c0, c1, c2, c3, rfl⟩ := len4 hm.2
    obtain ⟨d0, d1, d2, d3, rfl⟩ := len4 hm'.2
    have r0 : c0.measurementRange = d0.measurementRange :=
      same_of_holds inj_ui (h 2 _ rfl) (h' 2 _ rfl) (hs 2 (by decide))
    have f0 : c0.dataFormat = d0.dataFormat :=
      same_of_holds inj_format (h 1 _ rfl) (h' 1 _ rfl) (hs 1 (by decide))
    have r1 : c1.measurementRange = d1.measurementRange :=
      same_of_holds inj_ui (h 4 _ rfl) (h' 4 _ rfl) (hs 4 (by decide))
    have f1 : c1.dataFormat = d1.dataFormat :=
      same_of_holds inj_format (h 3 _ rfl) (h' 3 _ rfl) (hs 3 (by decide))
    have r2 : c2.measurementRange = d2.measurementRange :=
      same_of_holds inj_ui (h 6 _ rfl) (h' 6 _ rfl) (hs 6 (by decide))
    have f2 : c2.dataFormat = d2.dataFormat :=
      same_of_holds inj_format (h 5 _ rfl) (h' 5 _ rfl) (hs 5 (by decide))
    have r3 : c3.measurementRange = d3.measurementRange :=
      same_of_holds inj_ui (h 8 _ rfl) (h' 8 _ rfl) (hs 8 (by decide))
    have f3 : c3.dataFormat = d3.dataFormat :=
      same_of_holds inj_format (h 7 _ rfl) (h' 7 _ rfl) (hs 7 (by decide))
    exact ⟨hm.1.trans hm'.1.symm, by simp only [List.map_cons, List.map_nil, r0, f0, r1, f1, r2, f2, r3, f3]⟩
  case UR20_8AI_I_16_DIAG_HD.aiI.aiI m m' =>
    obtain ⟨d, ps⟩ := m
    obtain ⟨d', ps'⟩ := m'
    obtain ⟨c0, c1, c2, c3, c4, c5, c6, c7, rfl⟩ := len8 hm
    obtain ⟨d0, d1, d2, d3, d4, d5, d6, d7, rfl⟩ := len8 hm'
    have r0 : c0.measurementRange = d0.measurementRange :=
      same_of_holds inj_i (h 4 _ rfl) (h' 4 _ rfl) (hs 4 (by decide))
    have f0 : c0.dataFormat = d0.dataFormat :=
      same_of_holds inj_format (h 3 _ rfl) (h' 3 _ rfl) (hs 3 (by decide))
    have r1 : c1.measurementRange = d1.measurementRange :=
      same_of_holds inj_i (h 8 _ rfl) (h' 8 _ rfl) (hs 8 (by decide))
    have f1 : c1.dataFormat = d1.dataFormat :=
      same_of_holds inj_format (h 7 _ rfl) (h' 7 _ rfl) (hs 7 (by decide))
    have r2 : c2.measurementRange = d2.measurementRange :=
      same_of_holds inj_i (h 12 _ rfl) (h' 12 _ rfl) (hs 12 (by decide))
    have f2 : c2.dataFormat = d2.dataFormat :=
      same_of_holds inj_format (h 11 _ rfl) (h' 11 _ rfl) (hs 11 (by decide))
    have r3 : c3.measurementRange = d3.measurementRange :=
      same_of_holds inj_i (h 16 _ rfl) (h' 16 _ rfl) (hs 16 (by decide))
    have f3 : c3.dataFormat = d3.dataFormat :=
      same_of_holds inj_format (h 15 _ rfl) (h' 15 _ rfl) (hs 15 (by decide))
    have r4 : c4.measurementRange = d4.measurementRange :=
      same_of_holds inj_i (h 20 _ rfl) (h' 20 _ rfl) (hs 20 (by decide))
    have f4 : c4.dataFormat = d4.dataFormat :=
      same_of_holds inj_format (h 19 _ rfl) (h' 19 _ rfl) (hs 19 (by decide))
    have r5 : c5.measurementRange = d5.measurementRange :=
      same_of_holds inj_i (h 24 _ rfl) (h' 24 _ rfl) (hs 24 (by decide))
    have f5 : c5.dataFormat = d5.dataFormat :=
      same_of_holds inj_format (h 23 _ rfl) (h' 23 _ rfl) (hs 23 (by decide))
    have r6 : c6.measurementRange = d6.measurementRange :=
      same_of_holds inj_i (h 28 _ rfl) (h' 28 _ rfl) (hs 28 (by decide))
    have f6 : c6.dataFormat = d6.dataFormat :=
      same_of_holds inj_format (h 27 _ rfl) (h' 27 _ rfl) (hs 27 (by decide))
    have r7 : c7.measurementRange = d7.measurementRange :=
      same_of_holds inj_i (h 32 _ rfl) (h' 32 _ rfl) (hs 32 (by decide))
    have f7 : c7.dataFormat = d7.dataFormat :=
      same_of_holds inj_format (h 31 _ rfl) (h' 31 _ rfl) (hs 31 (by decide))
    simp only [SameConversion, List.map_cons, List.map_nil, r0, f0, r1, f1, r2, f2, r3, f3, r4, f4, r5, f5, r6, f6, r7, f7]
  case UR20_4AI_TC_DIAG.tc.tc m m' =>
    obtain ⟨d, ps⟩ := m
    obtain ⟨d', ps'⟩ := m'
    simp only [SameConversion]
    simp only [registers] at h h'
    have hl : ps.toList.length = 4 := by simp
    have hl' : ps'.toList.length = 4 := by simp
    generalize ps.toList = l at hl h
    generalize ps'.toList = l' at hl' h'
    obtain ⟨c0, c1, c2, c3, rfl⟩ := len4 hl
    obtain ⟨d0, d1, d2, d3, rfl⟩ := len4 hl'
    have r0 : c0.measurementRange = d0.measurementRange :=
      same_of_holds inj_tc (h 1 _ rfl) (h' 1 _ rfl) (hs 1 (by decide))
    have r1 : c1.measurementRange = d1.measurementRange :=
      same_of_holds inj_tc (h 8 _ rfl) (h' 8 _ rfl) (hs 8 (by decide))
    have r2 : c2.measurementRange = d2.measurementRange :=
      same_of_holds inj_tc (h 15 _ rfl) (h' 15 _ rfl) (hs 15 (by decide))
    have r3 : c3.measurementRange = d3.measurementRange :=
      same_of_holds inj_tc (h 22 _ rfl) (h' 22 _ rfl) (hs 22 (by decide))
    simp only [List.map_cons, List.map_nil, r0, r1, r2, r3]

theorem same_processor {m m' : Module} (h : SameConversion m m') : m.processor? = m'.processor? := by
  cases m <;> cases m' <;> simp only [SameConversion] at h <;> first | rfl | skip
  case com.com m m' => simp only [Module.processor?, h]

/-- equal states but for settings without importance -/
def Alike (c c' : Coupler) : Prop :=
  c.inValues = c'.inValues ∧ c.outValues = c'.outValues ∧ c.write = c'.write ∧
  c.lastTxCnt = c'.lastTxCnt ∧ c.offsets = c'.offsets ∧ c.processors = c'.processors ∧
  List.Forall₂ SameWork c.modules c'.modules

open Coupler

theorem mapRes_forall {α α' β : Type} {f : α → Res β} {g : α' → Res β} {l : List α} {l' : List α'}
    (h : List.Forall₂ (fun a b => f a = g b) l l') : mapRes f l = mapRes g l' := by
  induction h with
  | nil => rfl
  | cons h1 _ ih => rw [mapRes_cons, mapRes_cons, h1, ih]

theorem zip_forall {α β γ : Type} {R : α → β → Prop} {l : List α} {l' : List β}
    (h : List.Forall₂ R l l') (o : List γ) :
    List.Forall₂ (fun (p : α × γ) (q : β × γ) => R p.1 q.1 ∧ p.2 = q.2) (l.zip o) (l'.zip o) := by
  induction h generalizing o with
  | nil => simp
  | cons h1 _ ih =>
    cases o with
    | nil => simp
    | cons x o => exact .cons ⟨h1, rfl⟩ (ih o)

theorem moduleInput_same {m m' : Module} (h : SameWork m m') (oc : Bool) (data : List Word)
    (off : ModuleOffset) : moduleInput oc data m off = moduleInput oc data m' off := by
  obtain ⟨h1, h2, -, h3, -, -⟩ := h
  unfold moduleInput
  rw [h1, h2]
  cases off.input with
  | none => rfl
  | some o => simp only [Res.bind_eq, h3]

theorem moduleOutput_same {m m' : Module} (h : SameWork m m') (oc : Bool) (data : List Word)
    (off : ModuleOffset) : moduleOutput oc data m off = moduleOutput oc data m' off := by
  obtain ⟨h1, -, h2, -, h3, -⟩ := h
  unfold moduleOutput
  rw [h1, h2]
  cases off.output with
  | none => rfl
  | some o => simp only [Res.bind_eq, h3]

theorem outputLoop_same {l l' : List (Module × ModuleOffset)}
    (h : List.Forall₂ (fun p q => SameWork p.1 q.1 ∧ p.2 = q.2) l l') (vs : List (List ChannelValue))
    (out : List Word) : outputLoop out (l.zip vs) = outputLoop out (l'.zip vs) := by
  induction h generalizing vs out with
  | nil => rfl
  | @cons a b l1 l2 h1 _ ih =>
    cases vs with
    | nil => rfl
    | cons v vs =>
      obtain ⟨m, off⟩ := a
      obtain ⟨m', off'⟩ := b
      obtain ⟨hw, he⟩ := h1
      simp only at hw he
      subst he
      simp only [List.zip_cons_cons, outputLoop, Res.bind_eq, hw.2.2.2.2.2 v, ih]

theorem next_alike {c c' : Coupler} (h : Alike c c') (oc : Bool) (pi po : List Word) :
    (c.next oc pi po).2 = (c'.next oc pi po).2 ∧
      Alike (c.next oc pi po).1 (c'.next oc pi po).1 := by
  obtain ⟨h1, h2, h3, h4, h5, h6, h7⟩ := h
  obtain ⟨iv, ov, w, ms, offs, pr, tx⟩ := c
  obtain ⟨iv', ov', w', ms', offs', pr', tx'⟩ := c'
  simp only at h1 h2 h3 h4 h5 h6 h7
  subst h1 h2 h3 h4 h5 h6
  have hz := zip_forall h7 offs
  have hi : processInputData oc (ms.zip offs) pi = processInputData oc (ms'.zip offs) pi :=
    mapRes_forall (hz.imp fun p q hp => by rw [moduleInput_same hp.1, hp.2])
  have ho : processOutputData oc (ms.zip offs) po = processOutputData oc (ms'.zip offs) po :=
    mapRes_forall (hz.imp fun p q hp => by rw [moduleOutput_same hp.1, hp.2])
  have he : ∀ vs, processOutputValues (ms.zip offs) vs = processOutputValues (ms'.zip offs) vs := by
    intro vs
    unfold processOutputValues
    rw [hz.length_eq, outputLoop_same hz]
  unfold Coupler.next
  simp only [hi, ho, he]
  cases processInputData oc (ms'.zip offs) pi with
  | err e => exact ⟨rfl, rfl, rfl, rfl, rfl, rfl, rfl, h7⟩
  | panic => exact ⟨rfl, rfl, rfl, rfl, rfl, rfl, rfl, h7⟩
  | ok inV =>
    simp only
    cases processOutputData oc (ms'.zip offs) po with
    | err e => exact ⟨rfl, rfl, rfl, rfl, rfl, rfl, rfl, h7⟩
    | panic => exact ⟨rfl, rfl, rfl, rfl, rfl, rfl, rfl, h7⟩
    | ok outV =>
      simp only
      cases cycleLoop 0 ⟨w, pr, tx⟩ (inV.zip outV) with
      | err e => exact ⟨rfl, rfl, rfl, rfl, rfl, rfl, rfl, h7⟩
      | panic => exact ⟨rfl, rfl, rfl, rfl, rfl, rfl, rfl, h7⟩
      | ok r => exact ⟨rfl, rfl, rfl, rfl, rfl, rfl, rfl, h7⟩

theorem valid_alike {c c' : Coupler} (h : List.Forall₂ SameWork c.modules c'.modules) (a : Address) :
    c.isValidAddr a = c'.isValidAddr a := by
  unfold isValidAddr
  generalize c.modules = l at h
  generalize c'.modules = l' at h
  have : ∀ n : Nat, (l[n]?).map (·.moduleType) = (l'[n]?).map (·.moduleType) := by
    induction h with
    | nil => intro n; rfl
    | cons h1 _ ih =>
      intro n
      cases n with
      | zero => simp [h1.1]
      | succ n => simpa using ih n
  have := this a.module
  cases h1 : l[a.module]? <;> cases h2 : l'[a.module]? <;> rw [h1, h2] at this <;>
    simp only [Option.map_some, Option.map_none, Option.some.injEq, reduceCtorEq] at this
  simp only [this]

theorem call_alike {c c' : Coupler} (h : Alike c c') (oc : Bool) (op : COp) :
    (call oc c op).2 = (call oc c' op).2 ∧ Alike (call oc c op).1 (call oc c' op).1 := by
  cases op with
  | next pi po =>
    obtain ⟨h1, h2⟩ := next_alike h oc pi po
    exact ⟨by simp only [call, h1], h2⟩
  | setOutput a v =>
    have hv := valid_alike h.2.2.2.2.2.2 a
    obtain ⟨h1, h2, h3, h4, h5, h6, h7⟩ := h
    simp only [call, Coupler.setOutput, hv]
    split
    · exact ⟨rfl, h1, h2, h3, h4, h5, h6, h7⟩
    · refine ⟨rfl, h1, h2, ?_, h4, h5, h6, h7⟩
      simp only [h3]
  | read n len =>
    obtain ⟨h1, h2, h3, h4, h5, h6, h7⟩ := h
    simp only [call, Coupler.read, h6]
    cases c'.processors n with
    | none => exact ⟨rfl, h1, h2, h3, h4, h5, h6, h7⟩
    | some p =>
      simp only
      cases p.read len with
      | err e => exact ⟨rfl, h1, h2, h3, h4, h5, h6, h7⟩
      | panic => exact ⟨rfl, h1, h2, h3, h4, h5, h6, h7⟩
      | ok r =>
        refine ⟨rfl, h1, h2, h3, h4, h5, ?_, h7⟩
        simp only [Res.bind, setProcessor, h6]
  | write n buf =>
    obtain ⟨h1, h2, h3, h4, h5, h6, h7⟩ := h
    simp only [call, Coupler.writeBytes, h6]
    cases c'.processors n with
    | none => exact ⟨rfl, h1, h2, h3, h4, h5, h6, h7⟩
    | some p =>
      refine ⟨rfl, h1, h2, h3, h4, h5, ?_, h7⟩
      simp only [setProcessor, h6]

theorem trace_alike {c c' : Coupler} (h : Alike c c') (oc : Bool) (ops : List COp) :
    trace oc c ops = trace oc c' ops := by
  induction ops generalizing c c' with
  | nil => rfl
  | cons op ops ih =>
    obtain ⟨h1, h2⟩ := call_alike h oc op
    simp only [trace, h1]
    split
    · rfl
    · rw [ih h2]
      have e1 := h2.1
      have e2 := h2.2.1
      simp only [Coupler.inputs, Coupler.outputs, e1, e2]

end EditedProof

/-- C105: two configurations that differ only in parameter registers that do not take part in
conversions yield couplers between which no history of calls can tell the difference. -/
theorem C105_settings (oc : Bool) (cfg cfg' : CouplerConfig) (c c' : Coupler)
    (hnew : Coupler.new cfg = .ok c) (hnew' : Coupler.new cfg' = .ok c')
    (hm : cfg.modules = cfg'.modules) (ho : cfg.offsets = cfg'.offsets)
    (hp : ∀ (j : Nat) t ws ws', cfg.modules[j]? = some t → cfg.params[j]? = some ws →
      cfg'.params[j]? = some ws' → ∀ i ∈ conversionRegisters t, ws[i]? = ws'[i]?)
    (ops : List COp) : trace oc c ops = trace oc c' ops := by
  obtain ⟨h1, h2, ms, h3, rfl⟩ := Coupler.new_ok hnew
  obtain ⟨h1', h2', ms', h3', rfl⟩ := Coupler.new_ok hnew'
  have hl : ms.length = cfg.modules.length := by
    rw [mapRes_length h3, List.length_zip]; omega
  have hl' : ms'.length = cfg.modules.length := by
    rw [mapRes_length h3', List.length_zip, ← h1', ← hm]; omega
  have hsame : List.Forall₂ SameConversion ms ms' := by
    rw [List.forall₂_iff_get]
    refine ⟨hl.trans hl'.symm, fun j hj hj' => ?_⟩
    have ht := List.getElem?_eq_getElem (show j < cfg.modules.length by omega)
    have hw := List.getElem?_eq_getElem (show j < cfg.params.length by omega)
    have hw' := List.getElem?_eq_getElem (show j < cfg'.params.length by rw [← h1', ← hm]; omega)
    obtain ⟨m, e1, e2⟩ := mapRes_getElem? h3 (i := j) (a := (_, _)) (by
      rw [List.getElem?_zip_eq_some]; exact ⟨ht, hw⟩)
    obtain ⟨m', e1', e2'⟩ := mapRes_getElem? h3' (i := j) (a := (_, _)) (by
      rw [List.getElem?_zip_eq_some, ← hm]; exact ⟨ht, hw'⟩)
    rw [List.getElem?_eq_getElem hj, Option.some.injEq] at e1
    rw [List.getElem?_eq_getElem hj', Option.some.injEq] at e1'
    rw [List.get_eq_getElem, List.get_eq_getElem, e1, e1']
    exact created_same e2 e2' (hp j _ _ _ ht hw hw')
  have halike : Alike (Coupler.initial cfg ms) (Coupler.initial cfg' ms') := by
    refine ⟨rfl, rfl, rfl, rfl, by simp only [Coupler.initial, ho], ?_,
      hsame.imp fun m m' => C105_module m m'⟩
    funext n
    simp only [Coupler.initial]
    clear h3 h3' hl hl' hnew hnew'
    induction hsame generalizing n with
    | nil => rfl
    | cons h1 _ ih =>
      cases n with
      | zero => simpa using same_processor h1
      | succ n => simpa using ih n
  exact trace_alike halike oc ops

/-- Other substitute values, input delays and settings of the serial line. -/
def exCfg' : CouplerConfig :=
  { exCfg with
    params := [[1, 0, 1, 0], List.replicate 8 1, [5, 0, 1, 2], [0, 3, 11, 1, 2, 0, 1, 1, 17, 19]] }

example : ∃ c c', Coupler.new exCfg = .ok c ∧ Coupler.new exCfg' = .ok c' ∧
    c.modules ≠ c'.modules ∧ ∀ oc ops, trace oc c ops = trace oc c' ops := by
  obtain ⟨c, hc⟩ : ∃ c, Coupler.new exCfg = .ok c := ⟨_, exCfg_new⟩
  obtain ⟨c', hc'⟩ : ∃ c', Coupler.new exCfg' = .ok c' := by
    cases h : Coupler.new exCfg' with
    | ok c => exact ⟨c, rfl⟩
    | err e =>
      have : (Coupler.new exCfg').map (fun _ => ()) = .ok () := by decide +kernel
      rw [h] at this; cases this
    | panic =>
      have : (Coupler.new exCfg').map (fun _ => ()) = .ok () := by decide +kernel
      rw [h] at this; cases this
  refine ⟨c, c', hc, hc', fun he => ?_, fun oc ops =>
    C105_settings oc exCfg exCfg' c c' hc hc' rfl rfl ?_ ops⟩
  · have : (Coupler.new exCfg).map (·.modules) ≠ (Coupler.new exCfg').map (·.modules) := by
      decide +kernel
    rw [hc, hc'] at this
    exact this (by simp only [Res.map, he])
  · intro j t ws ws' ht hw hw' i hi
    match j, ht, hw, hw' with
    | 0, ht, hw, hw' => cases ht; cases hi
    | 1, ht, hw, hw' => cases ht; cases hi
    | 2, ht, hw, hw' => cases ht; cases hi
    | 3, ht, hw, hw' =>
      cases ht; cases hw; cases hw'
      simp only [conversionRegisters, List.mem_singleton] at hi
      subst hi
      rfl

end Ur20
