import Verif.Lemmas.Create

/-!
# C09–C12, C64, C65: creating modules from parameter registers

`Spec.maxCodes t` is the documented table of the largest code per register (`none`: the coupler
does not support the type), `Spec.registers m` lists for each register which field it describes.
-/

namespace Ur20

open Spec

/-- C09: `param_register_count` is the length of the documented block; fewer registers are
rejected with `BufferLength`; exactly that many are never rejected for their number and never
panic. -/
theorem C09_register_count (t : ModuleType) (ms : List Nat) (ht : maxCodes t = some ms)
    (n : Nat) (hn : paramRegisterCount t = .ok n) (ws : List Word) :
    n = ms.length ∧
    (ws.length < n → Module.create t ws = .err .bufferLength) ∧
    (ws.length = n → Module.create t ws ≠ .err .bufferLength ∧ Module.create t ws ≠ .panic) := by
  have hn' : paramRegisterCount t = .ok ms.length := by
    cases t <;> simp only [maxCodes, Option.some.injEq, reduceCtorEq] at ht <;> subst ht <;> rfl
  rw [hn] at hn'
  cases hn'
  refine ⟨rfl, create_short t ms ht ws, fun hl => ?_⟩
  have hm : lengthOk t ws.length := by
    rw [hl]
    cases t <;> simp only [maxCodes, Option.some.injEq, reduceCtorEq] at ht <;> subst ht <;>
      simp [lengthOk]
  have hc := create_checked t ms ht ws (by omega) hm
  by_cases hw : Within ws 0 ms
  · obtain ⟨m, h⟩ := hc.ok hw
    simp [h]
  · simp [hc.err hw]

/-- Every supported type has a register count; on every other type construction panics. -/
theorem C09_supported (t : ModuleType) :
    ((∃ ms, maxCodes t = some ms) → ∃ n, paramRegisterCount t = .ok n) ∧
    (maxCodes t = none → ∀ ws, Module.create t ws = .panic) :=
  ⟨fun ⟨ms, h⟩ => by
    cases t <;> first | exact ⟨_, rfl⟩ | simp [maxCodes] at h,
   fun h => create_unsupported t h⟩

example : maxCodes .UR20_4AI_RTD_DIAG ≠ none ∧ paramRegisterCount .UR20_4AI_RTD_DIAG = .ok 29 := by
  decide

theorem lengthOk_exact (t : ModuleType) (ms : List Nat) (ht : maxCodes t = some ms) :
    lengthOk t ms.length := by
  cases t <;> simp only [maxCodes, Option.some.injEq, reduceCtorEq] at ht <;> subst ht <;>
    simp [lengthOk]

/-- C08: the types with a register count are those `new` can create, with the length of their
documented block, and the two digital input modules with three-wire connection, with one register
per channel. For all other types the function panics. -/
theorem C08_counts (t : ModuleType) :
    (∀ n, paramRegisterCount t = .ok n ↔
      (∃ ms, maxCodes t = some ms ∧ n = ms.length) ∨
      (t = .UR20_4DI_P_3W ∧ n = 4) ∨ (t = .UR20_8DI_P_3W ∧ n = 8)) ∧
    ((∀ n, paramRegisterCount t ≠ .ok n) → paramRegisterCount t = .panic) := by
  refine ⟨fun n => ?_, fun h => ?_⟩
  · cases t <;> simp [paramRegisterCount, maxCodes] <;> exact eq_comm
  · cases t <;> first | rfl | exact absurd rfl (h _)

example : paramRegisterCount .UR20_8DI_P_3W = .ok 8 ∧ maxCodes .UR20_8DI_P_3W = none :=
  ⟨((C08_counts _).1 8).2 (.inr (.inr ⟨rfl, rfl⟩)), rfl⟩

/-- C10: a parameter list of the documented length is accepted exactly when every register is at
most its largest documented code, and is rejected with `ChannelParameter` otherwise; a shorter one
is rejected with `BufferLength`. -/
theorem C10_accepted (t : ModuleType) (ms : List Nat) (ht : maxCodes t = some ms)
    (ws : List Word) :
    (ws.length = ms.length →
      ((∃ m, Module.create t ws = .ok m) ↔
        ∀ (i m : Nat) (w : Word), ms[i]? = some m → ws[i]? = some w → w.toNat ≤ m) ∧
      ((¬ ∃ m, Module.create t ws = .ok m) → Module.create t ws = .err .channelParameter)) ∧
    (ws.length < ms.length → Module.create t ws = .err .bufferLength) := by
  refine ⟨fun hl => ?_, create_short t ms ht ws⟩
  have hc := create_checked t ms ht ws (by omega) (hl ▸ lengthOk_exact t ms ht)
  have hW : Within ws 0 ms ↔
      ∀ (i m : Nat) (w : Word), ms[i]? = some m → ws[i]? = some w → w.toNat ≤ m := by
    rw [within_iff]
    constructor
    · intro h i m w hi hw
      obtain ⟨w', hw', hle⟩ := h i m hi
      rw [hw] at hw'
      cases hw'
      exact hle
    · intro h i m hi
      have hi' : i < ms.length := by
        rw [List.getElem?_eq_some_iff] at hi
        exact hi.1
      exact ⟨ws[i]'(by omega), by simp, h i m _ hi (List.getElem?_eq_getElem _)⟩
  rw [← hW]
  refine ⟨⟨fun ⟨m, h⟩ => ?_, hc.ok⟩, fun h => hc.err fun hw => h (hc.ok hw)⟩
  by_cases hw : Within ws 0 ms
  · exact hw
  · rw [hc.err hw] at h
    cases h

example : (Module.create .UR20_4DI_P [0, 5, 3, 1]) =
      .ok (.di ⟨.UR20_4DI_P, [⟨.no⟩, ⟨.ms40⟩, ⟨.ms10⟩, ⟨.us300⟩]⟩) ∧
    Module.create .UR20_4DI_P [0, 5, 3, 6] = .err .channelParameter ∧
    Module.create .UR20_4DI_P [0, 5, 3] = .err .bufferLength := by decide

/-- C11: in an accepted parameter list every register holds the value of the field that it
documents, channel by channel and field by field, and there is exactly one register per field. -/
theorem C11_fields (t : ModuleType) (ms : List Nat) (ht : maxCodes t = some ms)
    (ws : List Word) (hl : ws.length = ms.length) (m : Module) (hm : Module.create t ws = .ok m) :
    (registers m).length = ws.length ∧
    ∀ (i : Nat) (P : Word → Prop) (w : Word),
      (registers m)[i]? = some P → ws[i]? = some w → P w := by
  have hc := create_checked t ms ht ws (by omega) (hl ▸ lengthOk_exact t ms ht)
  obtain ⟨h1, h2⟩ := hc.val m hm
  constructor
  · rw [hl]
    cases t <;> simp only [maxCodes, Option.some.injEq, reduceCtorEq] at ht <;> subst ht <;>
      cases m <;> simp only [IsCreated] at h1 <;>
      simp [registers, List.length_flatMap, List.map_const', h1]
  · intro i P w hP hw
    rw [fits_iff] at h2
    obtain ⟨w', hw', hp⟩ := h2 i P hP
    rw [Nat.zero_add, hw] at hw'
    cases hw'
    exact hp

/-- The register codes are unambiguous: each register value stands for at most one field value, so
`C11_fields` determines the fields. -/
theorem C11_codes_injective :
    (∀ a b : Bool, code a = code b → a = b) ∧
    (∀ a b : DataFormat, code a = code b → a = b) ∧
    (∀ a b : AnalogUIRange, code a = code b → a = b) ∧
    (∀ a b : AnalogIRange, code a = code b → a = b) ∧
    (∀ a b : RtdRange, code a = code b → a = b) ∧
    (∀ a b : TemperatureUnit, code a = code b → a = b) ∧
    (∀ a b : ConnectionType, code a = code b → a = b) ∧
    (∀ a b : ConversionTime, code a = code b → a = b) ∧
    (∀ a b : InputFilter, code a = code b → a = b) ∧
    (∀ a b : InputDelay, code a = code b → a = b) ∧
    (∀ a b : FrequencySuppression, code a = code b → a = b) ∧
    (∀ a b : TcRange, code a = code b → a = b) ∧
    (∀ a b : ColdJunctionCompensation, code a = code b → a = b) ∧
    (∀ a b : OperatingMode, code a = code b → a = b) ∧
    (∀ a b : DataBits, code a = code b → a = b) ∧
    (∀ a b : BaudRate, code a = code b → a = b) ∧
    (∀ a b : StopBit, code a = code b → a = b) ∧
    (∀ a b : Parity, code a = code b → a = b) ∧
    (∀ a b : FlowControl, code a = code b → a = b) ∧
    (∀ a b : ProcessDataLength, code a = code b → a = b) := by
  refine ⟨?_, ?_, ?_, ?_, ?_, ?_, ?_, ?_, ?_, ?_, ?_, ?_, ?_, ?_, ?_, ?_, ?_, ?_, ?_, ?_⟩ <;>
    (intro a b; cases a <;> cases b <;> first | (intro; rfl) | (intro h; cases h))

example : Module.create .UR20_1COM_232_485_422 [1, 3, 11, 1, 2, 0, 1, 1, 17, 19] =
    .ok (.com ⟨.SixteenBytes, [⟨.RS422, .EightBits, .Baud_115200, .TwoBits, .Odd, .None,
      17#8, 19#8, true⟩]⟩) := by decide

/-- The full statement of C12: words after the documented block change nothing. -/
def C12_statement : Prop :=
  ∀ (t : ModuleType) (ms : List Nat) (ws extra : List Word), maxCodes t = some ms →
    ws.length = ms.length → Module.create t (ws ++ extra) = Module.create t ws

/-- C12 does not hold: the thermocouple module panics when seven more words follow the block. -/
theorem C12_statement_false : ¬ C12_statement := by
  intro h
  have h := h .UR20_4AI_TC_DIAG _ (List.replicate 29 0) (List.replicate 7 0) rfl rfl
  revert h
  decide +kernel

/-- C12 for all supported types but three: surplus words change nothing. For the thermocouple
module this holds up to six surplus words. -/
theorem C12_surplus_partial (t : ModuleType) (ms : List Nat) (ht : maxCodes t = some ms)
    (ws extra : List Word) (hl : ws.length = ms.length) (h16 : t ≠ .UR20_16DO_P)
    (hs : t ≠ .UR20_PF_O_1DI_SIL) (htc : t = .UR20_4AI_TC_DIAG → extra.length < 7) :
    Module.create t (ws ++ extra) = Module.create t ws := by
  by_cases h : t = .UR20_4AI_TC_DIAG
  · subst h
    simp only [maxCodes, Option.some.injEq] at ht
    subst ht
    exact create_append_tc ws extra hl (htc rfl)
  · exact create_append t ms ht ⟨h16, hs, h⟩ ws extra (by omega)

/-- C12, the excluded cases: the two types without parameters reject every non-empty list with
`BufferLength`. -/
theorem C12_parameterless_reject (t : ModuleType)
    (ht : t = .UR20_16DO_P ∨ t = .UR20_PF_O_1DI_SIL) (w : Word) (ws : List Word) :
    Module.create t (w :: ws) = .err .bufferLength := by
  rcases ht with rfl | rfl <;> rfl

/-- C12, the excluded case: a thermocouple module given a valid block followed by seven or more
words that look like further valid channels panics, and is rejected otherwise; it is never
created. -/
theorem C12_thermocouple_never (ws extra : List Word) (hl : ws.length = 29)
    (he : 7 ≤ extra.length) (m : Module) :
    Module.create .UR20_4AI_TC_DIAG (ws ++ extra) ≠ .ok m ∧
    (extra = List.replicate extra.length 0 → (∃ m, Module.create .UR20_4AI_TC_DIAG ws = .ok m) →
      Module.create .UR20_4AI_TC_DIAG (ws ++ extra) = .panic) := by
  have h := Tc.too_long (ws ++ extra) (by simp; omega)
  constructor
  · simp only [Module.create]
    by_cases hw : Within (ws ++ extra) 0 (2 :: (List.replicate (((ws ++ extra).length - 1) / 7)
      [19, 4, 5, 1, 1, 65535, 65535]).flatten)
    · rw [h.1 hw]; simp
    · rw [h.2 hw]; simp
  · intro hz ⟨m, hm⟩
    simp only [Module.create]
    rw [h.1 ?_]
    · rfl
    · obtain ⟨hin, -⟩ := (C10_accepted .UR20_4AI_TC_DIAG _ rfl ws).1 hl
      have hin := hin.1 ⟨m, hm⟩
      rw [within_iff]
      intro i m hi
      have hlen : i < (ws ++ extra).length := by
        have : i < (2 :: (List.replicate (((ws ++ extra).length - 1) / 7)
          [19, 4, 5, 1, 1, 65535, 65535]).flatten).length :=
          (List.getElem?_eq_some_iff.1 hi).1
        simp only [List.length_cons, List.length_flatten, List.map_replicate,
          List.sum_replicate_nat, List.length_nil, List.length_append] at this ⊢
        omega
      refine ⟨_, List.getElem?_eq_getElem hlen, ?_⟩
      by_cases hi29 : i < 29
      · have hle : 4 ≤ ((ws ++ extra).length - 1) / 7 := by simp; omega
        obtain ⟨k, hk⟩ := Nat.exists_eq_add_of_le hle
        rw [hk, ← List.replicate_append_replicate, List.flatten_append, ← List.cons_append,
          List.getElem?_append_left (by simpa using hi29)] at hi
        rw [List.getElem_append_left (by omega)]
        exact hin i m _ hi (List.getElem?_eq_getElem _)
      · rw [List.getElem_append_right (by omega), List.getElem_of_eq hz, List.getElem_replicate]
        simp

example : Module.create .UR20_4AI_TC_DIAG (List.replicate 36 0) = .panic ∧
    (∃ m, Module.create .UR20_4AI_TC_DIAG (List.replicate 35 0) = .ok m) :=
  ⟨by decide +kernel, by
    rw [show List.replicate 35 (0 : Word) = List.replicate 29 0 ++ List.replicate 6 0 by decide,
      C12_surplus_partial _ _ rfl _ _ rfl (by decide) (by decide) (by decide)]
    exact ((C10_accepted _ _ rfl _).1 rfl).1.2 (by
      intro i m w _ h
      rw [List.getElem?_replicate] at h
      split at h <;> simp at h
      subst h
      exact Nat.zero_le _)⟩

example : Module.create .UR20_4DI_P [0, 5, 3, 1, 77, 78] =
    Module.create .UR20_4DI_P [0, 5, 3, 1] := by decide

/-- The substitute value of an analog output channel is its decoded third register, or zero if the
channel is disabled. What decoding means is C64, in `Props/Analog.lean`. -/
theorem substitute_field (ws : List Word) (hl : ws.length = 12) (m : Ao.Mod)
    (hm : Module.create .UR20_4AO_UI_16 ws = .ok (.ao m)) (i : Nat) (c : Ao.ChannelParameters)
    (hc : m.chParams[i]? = some c) :
    ∃ w : Word, ws[3 * i + 2]? = some w ∧
      (c.outputRange = .Disabled → c.substituteValue = .fin 0) ∧
      (c.outputRange ≠ .Disabled →
        u16ToAnalogUiValue w c.outputRange c.dataFormat = some c.substituteValue) := by
  obtain ⟨h1, h2⟩ := C11_fields .UR20_4AO_UI_16 _ rfl ws hl _ hm
  have hr : (registers (.ao m))[3 * i + 2]? =
      some (holdsSubstitute c.outputRange c.dataFormat c.substituteValue) := by
    simp only [registers]
    exact getElem?_flatMap_const (n := 3) _ _ (fun _ => rfl) i 2 (by omega) c hc
  have hlt : 3 * i + 2 < ws.length := by
    rw [← h1]
    exact (List.getElem?_eq_some_iff.1 hr).1
  refine ⟨_, List.getElem?_eq_getElem hlt, ?_⟩
  have := h2 _ _ _ hr (List.getElem?_eq_getElem hlt)
  unfold holdsSubstitute at this
  constructor
  · intro hd
    rwa [if_pos hd] at this
  · intro hd
    rwa [if_neg hd] at this

/-- The same for the module with diagnosis. -/
theorem substitute_field_diag (ws : List Word) (hl : ws.length = 16) (m : AoDiag.Mod)
    (hm : Module.create .UR20_4AO_UI_16_DIAG ws = .ok (.aoDiag m)) (i : Nat)
    (c : AoDiag.ChannelParameters) (hc : m.chParams[i]? = some c) :
    ∃ w : Word, ws[4 * i + 2]? = some w ∧
      (c.outputRange = .Disabled → c.substituteValue = .fin 0) ∧
      (c.outputRange ≠ .Disabled →
        u16ToAnalogUiValue w c.outputRange c.dataFormat = some c.substituteValue) := by
  obtain ⟨h1, h2⟩ := C11_fields .UR20_4AO_UI_16_DIAG _ rfl ws hl _ hm
  have hr : (registers (.aoDiag m))[4 * i + 2]? =
      some (holdsSubstitute c.outputRange c.dataFormat c.substituteValue) := by
    simp only [registers]
    exact getElem?_flatMap_const (n := 4) _ _ (fun _ => rfl) i 2 (by omega) c hc
  have hlt : 4 * i + 2 < ws.length := by
    rw [← h1]
    exact (List.getElem?_eq_some_iff.1 hr).1
  refine ⟨_, List.getElem?_eq_getElem hlt, ?_⟩
  have := h2 _ _ _ hr (List.getElem?_eq_getElem hlt)
  unfold holdsSubstitute at this
  constructor
  · intro hd
    rwa [if_pos hd] at this
  · intro hd
    rwa [if_neg hd] at this

example : Module.create .UR20_4AO_UI_16 [0, 0, 8192, 0, 8, 5, 1, 3, 0, 1, 2, 0x9400] =
    .ok (.ao ⟨[⟨.S5, .mA0To20, .fin 10⟩, ⟨.S5, .Disabled, .fin 0⟩, ⟨.S7, .VMinus10To10, .fin 0⟩,
      ⟨.S7, .V0To10, .fin (-10)⟩]⟩) := by decide +kernel

/-- The full statement of C65. -/
def C65_statement : Prop :=
  ∀ (t : ModuleType) (ws : List Word) (m : Module), Module.create t ws = .ok m → m.moduleType = t

/-- C65 does not hold: a `UR20_4AI_UI_16` module reports `UR20_4AI_UI_12`. -/
theorem C65_statement_false : ¬ C65_statement := by
  intro h
  have h := h .UR20_4AI_UI_16 (List.replicate 9 0) _ rfl
  revert h
  decide

/-- C65 for every type but `UR20_4AI_UI_16`, for parameter lists of any length; and that type
always reports `UR20_4AI_UI_12`. -/
theorem C65_module_type_partial (t : ModuleType) (ws : List Word) (m : Module)
    (h : Module.create t ws = .ok m) :
    (t ≠ .UR20_4AI_UI_16 → m.moduleType = t) ∧
    (t = .UR20_4AI_UI_16 → m.moduleType = .UR20_4AI_UI_12) := by
  cases hmc : maxCodes t with
  | none => rw [create_unsupported t hmc] at h; cases h
  | some ms =>
    have hl : ms.length ≤ ws.length := by
      apply Nat.le_of_not_lt
      intro hl
      rw [create_short t ms hmc ws hl] at h
      cases h
    have hm : lengthOk t ws.length := by
      cases t <;> simp only [lengthOk]
      case UR20_16DO_P =>
        cases ws with
        | nil => rfl
        | cons w ws => cases h
      case UR20_PF_O_1DI_SIL =>
        cases ws with
        | nil => rfl
        | cons w ws => cases h
      case UR20_4AI_TC_DIAG =>
        apply Nat.lt_of_not_le
        intro h36
        simp only [maxCodes, Option.some.injEq] at hmc
        refine (C12_thermocouple_never (ws.take 29) (ws.drop 29) (by simp; omega) (by simp; omega)
          m).1 ?_
        rw [List.take_append_drop]
        exact h
    have hc := ((create_checked t ms hmc ws hl hm).val m h).1
    cases t <;> cases m <;> simp only [IsCreated] at hc <;>
      simp [Module.moduleType, Di.Mod.moduleType, Do.Mod.moduleType, Ai.Mod.moduleType, hc,
        Di.Variant.moduleType, Do.Variant.moduleType]

example : ∃ m, Module.create .UR20_8DO_P [0, 1, 0, 1, 0, 0, 1, 1] = .ok m ∧
    m.moduleType = .UR20_8DO_P := ⟨_, rfl, rfl⟩

end Ur20
