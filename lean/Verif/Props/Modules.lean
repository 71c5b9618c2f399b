import Verif.Model.Defaults
import Verif.Spec.Modules
import Verif.Lemmas.Encode

/-!
# Single modules: when decoding and encoding succeed, and the default modules (C74–C76)
-/

namespace Ur20

open Spec Com

theorem u16ToU8_frame (ws : List Word) :
    (u16ToU8 ws).length < 2 ∨ (∃ n, (u16ToU8 ws)[1]? = some n ∧ (u16ToU8 ws).length < 2 + n.toNat)
      ↔ ¬ IsFrame ws := by
  cases ws with
  | nil => simp [IsFrame, u16ToU8]
  | cons w ws =>
    have hl := u16ToU8_length (w :: ws)
    have h1 : (u16ToU8 (w :: ws))[1]? = some (hiByte w) := rfl
    have hn : (hiByte w).toNat = w.toNat / 256 := hiByte_toNat w
    rw [h1, hl]
    simp only [IsFrame, Option.some.injEq, exists_eq_left', List.length_cons,
      List.getElem?_cons_zero, hn]
    omega

theorem created_channels {t : ModuleType} {m : Module} (hg : IsCreated t m) :
    m.moduleType.channelCount = t.channelCount ∧ (m = .sil ↔ t = .UR20_PF_O_1DI_SIL) := by
  cases t <;> cases m <;>
    first
    | exact hg.elim
    | exact ⟨rfl, by simp⟩
    | (rename_i m
       obtain ⟨v, ps⟩ := m
       obtain ⟨rfl, -⟩ := hg
       exact ⟨rfl, by simp⟩)

theorem rawWords_eq {t : ModuleType} {par : List Word} :
    (inputBytes t par ≠ 0 → rawWords (inputBytes t par) = (inputBytes t par + 1) / 2) ∧
    (outputBytes t par ≠ 0 → rawWords (outputBytes t par) = (outputBytes t par + 1) / 2) := by
  have h1 : inputBytes t par = 1 ∨ inputBytes t par % 2 = 0 := by
    unfold inputBytes
    split <;> (try split) <;> simp
  have h2 : outputBytes t par = 1 ∨ outputBytes t par % 2 = 0 := by
    unfold outputBytes
    split <;> (try split) <;> simp
  unfold rawWords
  constructor <;> intro h <;> split <;> omega

theorem noInput_nil {m : Module} (hn : m.inputByteCount = 0) :
    m.processInputData [] = .ok (List.replicate m.moduleType.channelCount .none) := by
  cases m
  case di m =>
    obtain ⟨v, ps⟩ := m
    cases v
    · change (4 + 7) / 8 = 0 at hn; omega
    · change (8 + 7) / 8 = 0 at hn; omega
  case ai m =>
    obtain ⟨v, d, ps⟩ := m
    cases v <;> cases hn
  case com m =>
    obtain ⟨l, ps⟩ := m
    cases l <;> cases hn
  all_goals first | rfl | cases hn

theorem noOutput_nil {m : Module} (hn : m.outputByteCount = 0) :
    m.processOutputData [] = .ok (List.replicate m.moduleType.channelCount .none) := by
  cases m
  case dout m =>
    obtain ⟨v, ps⟩ := m
    cases v <;> cases hn
  case com m =>
    obtain ⟨l, ps⟩ := m
    cases l <;> cases hn
  all_goals first | rfl | cases hn

theorem noOutput_encode {m : Module} (hn : m.outputByteCount = 0) (vs : List ChannelValue) :
    m.processOutputValues vs = defaultProcessOutputValues m.moduleType vs := by
  cases m
  case dout m =>
    obtain ⟨v, ps⟩ := m
    cases v <;> cases hn
  case com m =>
    obtain ⟨l, ps⟩ := m
    cases l <;> cases hn
  all_goals first | rfl | cases hn

theorem processInputData_length_err {t : ModuleType} {par : List Word} {m : Module}
    (hc : Module.create t par = .ok m) (hs : ¬ IsSerial m) {ws : List Word}
    (hl : ws.length ≠ (m.inputByteCount + 1) / 2) :
    m.processInputData ws = .err .bufferLength := by
  have hg := create_good hc
  by_cases hn : m.inputByteCount = 0
  · refine Module.processInputData_none m hn ws ?_
    rintro rfl
    rw [hn] at hl
    exact hl rfl
  · cases m
    case com m => exact absurd ⟨m, rfl⟩ hs
    case di m =>
      have h1 : m.inputByteCount = 1 := by
        unfold Di.Mod.inputByteCount
        cases m.variant <;> rfl
      simp only [Module.inputByteCount, h1] at hl
      exact if_pos hl
    case ai m =>
      obtain ⟨v, d, ps⟩ := m
      cases v <;> (change ws.length ≠ (8 + 1) / 2 at hl; exact if_pos (c := ws.length ≠ 4) hl)
    all_goals first
      | exact absurd rfl hn
      | (change ws.length ≠ (4 + 1) / 2 at hl; exact if_pos (c := ws.length ≠ 2) hl)
      | (change ws.length ≠ (8 + 1) / 2 at hl; exact if_pos (c := ws.length ≠ 4) hl)
      | (change ws.length ≠ (16 + 1) / 2 at hl; exact if_pos (c := ws.length ≠ 8) hl)
      | (change ws.length ≠ (20 + 1) / 2 at hl; exact if_pos (c := ws.length ≠ 10) hl)

theorem processOutputData_length_err {t : ModuleType} {par : List Word} {m : Module}
    (hc : Module.create t par = .ok m) (hs : ¬ IsSerial m) {ws : List Word}
    (hl : ws.length ≠ (m.outputByteCount + 1) / 2) :
    m.processOutputData ws = .err .bufferLength := by
  have hg := create_good hc
  by_cases hn : m.outputByteCount = 0
  · refine Module.processOutputData_none m hn ws ?_
    rintro rfl
    rw [hn] at hl
    exact hl rfl
  · cases m
    case com m => exact absurd ⟨m, rfl⟩ hs
    case dout m =>
      have h1 : m.outputByteCount = 1 := by
        unfold Do.Mod.outputByteCount
        cases m.variant <;> rfl
      simp only [Module.outputByteCount, h1] at hl
      exact if_pos hl
    all_goals first
      | exact absurd rfl hn
      | (change ws.length ≠ (2 + 1) / 2 at hl; exact if_pos (c := ws.length ≠ 1) hl)
      | (change ws.length ≠ (1 + 1) / 2 at hl; exact if_pos (c := ws.length ≠ 1) hl)
      | (change ws.length ≠ (8 + 1) / 2 at hl; exact if_pos (c := ws.length ≠ 4) hl)
      | (change ws.length ≠ (12 + 1) / 2 at hl; exact if_pos (c := ws.length ≠ 6) hl)

/-- C74 for inputs: decoding succeeds exactly on `Decodes`, with one value per channel (one for the
safety module), and fails with `BufferLength` otherwise. -/
theorem C74_inputs (t : ModuleType) (par : List Word) (m : Module)
    (hc : Module.create t par = .ok m) (ws : List Word) :
    (Decodes t (inputBytes t par) ws → ∃ vs, m.processInputData ws = .ok vs ∧
      vs.length = (if t = .UR20_PF_O_1DI_SIL then 1 else t.channelCount) ∧
      (inputBytes t par = 0 → ∀ v ∈ vs, v = .none)) ∧
    (¬ Decodes t (inputBytes t par) ws → m.processInputData ws = .err .bufferLength) := by
  have hg := create_good hc
  obtain ⟨hb, -⟩ := create_bytes hc
  obtain ⟨hcc, hsil⟩ := created_channels hg
  by_cases hs : IsSerial m
  · have ht := (isSerial_type hc).1 hs
    subst ht
    obtain ⟨cm, rfl⟩ := hs
    have hz : inputBytes .UR20_1COM_232_485_422 par ≠ 0 := by
      unfold inputBytes; simp only; split <;> simp
    simp only [Decodes, if_true]
    have he : (Module.com cm).processInputData ws =
        (rsInFromBytes (u16ToU8 ws)).map fun v => [.comRsIn v] := by
      simp only [Module.processInputData, Com.Mod.processInputData]
      cases rsInFromBytes (u16ToU8 ws) <;> rfl
    rw [he]
    constructor
    · intro hf
      have h0 := mt (u16ToU8_frame ws).1 (not_not.2 hf)
      rw [← (C21_input _).1] at h0
      have h1 := u16ToU8_frame ws
      obtain ⟨v, hv⟩ := rsIn_total (bytes := u16ToU8 ws) (by by_contra h; exact h1.1 (.inl (by omega)) hf)
        (fun n hn => by by_contra h; exact h1.1 (.inr ⟨n, hn, by omega⟩) hf)
      rw [hv]
      exact ⟨_, rfl, rfl, fun h => absurd h hz⟩
    · intro hf
      rw [((C21_input _).1).2 ((u16ToU8_frame ws).2 hf)]
      rfl
  · have ht := mt (isSerial_type hc).2 hs
    simp only [Decodes, if_neg ht, ← hb]
    refine ⟨fun hl => ?_, processInputData_length_err hc hs⟩
    have key : ∃ vs, m.processInputData ws = .ok vs ∧ (m.inputByteCount = 0 → ∀ v ∈ vs, v = .none) := by
      by_cases hn : m.inputByteCount = 0
      · obtain rfl : ws = [] := List.length_eq_zero_iff.1 (by rw [hl, hn])
        refine ⟨_, noInput_nil hn, fun _ v hv => (List.mem_replicate.1 hv).2⟩
      · obtain ⟨vs, hv⟩ := processInputData_total hc hs hn (ws := ws) (by
          rw [hl, hb, (rawWords_eq).1 (by rwa [← hb])])
        exact ⟨vs, hv, fun h => absurd h hn⟩
    obtain ⟨vs, hv, hz⟩ := key
    refine ⟨vs, hv, ?_, hz⟩
    rw [Module.processInputData_length m ws vs hv, hcc]
    simp only [hsil]

/-- C74 for outputs. -/
theorem C74_outputs (t : ModuleType) (par : List Word) (m : Module)
    (hc : Module.create t par = .ok m) (ws : List Word) :
    (Decodes t (outputBytes t par) ws → ∃ vs, m.processOutputData ws = .ok vs ∧
      vs.length = t.channelCount ∧ (outputBytes t par = 0 → ∀ v ∈ vs, v = .none)) ∧
    (¬ Decodes t (outputBytes t par) ws → m.processOutputData ws = .err .bufferLength) := by
  have hg := create_good hc
  obtain ⟨-, hb⟩ := create_bytes hc
  obtain ⟨hcc, -⟩ := created_channels hg
  by_cases hs : IsSerial m
  · have ht := (isSerial_type hc).1 hs
    subst ht
    obtain ⟨cm, rfl⟩ := hs
    have hz : outputBytes .UR20_1COM_232_485_422 par ≠ 0 := by
      unfold outputBytes; simp only; split <;> simp
    simp only [Decodes, if_true]
    have he : (Module.com cm).processOutputData ws =
        (rsOutFromBytes (u16ToU8 ws)).map fun v => [.comRsOut v] := by
      simp only [Module.processOutputData, Com.Mod.processOutputData]
      cases rsOutFromBytes (u16ToU8 ws) <;> rfl
    rw [he]
    constructor
    · intro hf
      have h0 := mt (u16ToU8_frame ws).1 (not_not.2 hf)
      rw [← (C21_output _).1] at h0
      have h1 := u16ToU8_frame ws
      obtain ⟨v, hv⟩ := rsOut_total (bytes := u16ToU8 ws) (by by_contra h; exact h1.1 (.inl (by omega)) hf)
        (fun n hn => by by_contra h; exact h1.1 (.inr ⟨n, hn, by omega⟩) hf)
      rw [hv]
      exact ⟨_, rfl, rfl, fun h => absurd h hz⟩
    · intro hf
      rw [((C21_output _).1).2 ((u16ToU8_frame ws).2 hf)]
      rfl
  · have ht := mt (isSerial_type hc).2 hs
    simp only [Decodes, if_neg ht, ← hb]
    refine ⟨fun hl => ?_, processOutputData_length_err hc hs⟩
    have key : ∃ vs, m.processOutputData ws = .ok vs ∧ (m.outputByteCount = 0 → ∀ v ∈ vs, v = .none) := by
      by_cases hn : m.outputByteCount = 0
      · obtain rfl : ws = [] := List.length_eq_zero_iff.1 (by rw [hl, hn])
        refine ⟨_, noOutput_nil hn, fun _ v hv => (List.mem_replicate.1 hv).2⟩
      · obtain ⟨vs, hv⟩ := processOutputData_total hc hs hn (ws := ws) (by
          rw [hl, hb, (rawWords_eq).2 (by rwa [← hb])])
        exact ⟨vs, hv, fun h => absurd h hn⟩
    obtain ⟨vs, hv, hz⟩ := key
    refine ⟨vs, hv, ?_, hz⟩
    rw [Module.processOutputData_length m ws vs hv, hcc]

/-- C75 for modules with plain outputs. -/
theorem C75_outputs (t : ModuleType) (par : List Word) (m : Module)
    (hc : Module.create t par = .ok m) (ht : t ≠ .UR20_1COM_232_485_422)
    (hn : outputBytes t par ≠ 0) (vs : List ChannelValue) :
    ((vs.length = t.channelCount ∧ ∀ v ∈ vs, Accepts t v) →
      ∃ ws, m.processOutputValues vs = .ok ws ∧ ws.length = (outputBytes t par + 1) / 2) ∧
    (¬ (vs.length = t.channelCount ∧ ∀ v ∈ vs, Accepts t v) →
      m.processOutputValues vs = .err .channelValue) := by
  have hg := create_good hc
  have hb := (create_bytes hc).2
  have hs : ¬ IsSerial m := fun h => ht ((isSerial_type hc).1 h)
  obtain ⟨hcc, -⟩ := created_channels hg
  have key : ((vs.length = t.channelCount ∧ ∀ v ∈ vs, Accepts t v) →
      ∃ ws, m.processOutputValues vs = .ok ws) ∧
      (¬ (vs.length = t.channelCount ∧ ∀ v ∈ vs, Accepts t v) →
        m.processOutputValues vs = .err .channelValue) := by
    rw [← hcc]
    cases ha : analogOutputs m with
    | some ps =>
      have h4 : m.moduleType.channelCount = 4 := by
        cases m <;> first | rfl | cases ha
      have h := C66_accepts t par m hc ps ha vs
      have he : (vs.length = 4 ∧ ∀ v ∈ vs, v = .disabled ∨ ∃ x, v = .decimal32 x) ↔
          (vs.length = 4 ∧ ∀ v ∈ vs, Accepts t v) :=
        and_congr_right fun _ => forall₂_congr fun v _ =>
          ⟨analog_accepts hg ha, accepts_analog hg ha⟩
      rw [h4, ← he, ← h.1]
      exact ⟨id, h.2⟩
    | none =>
      cases hd : digitalOutputs m with
      | some n =>
        obtain ⟨-, h0, h1, h2⟩ := digitalOutputs_spec m n hd
        rw [h0, h2]
        constructor
        · rintro ⟨h3, h4⟩
          rw [if_neg (by omega)]
          obtain ⟨d, h5, -⟩ := encodeBits_ok 0 0#16 vs fun v hv => accepts_digital hg hd (h4 v hv)
          rw [h5]
          exact ⟨_, rfl⟩
        · intro h3
          split
          · rfl
          · rename_i h4
            rw [encodeBits_err 0 0#16 vs fun h5 =>
              h3 ⟨not_not.1 h4, fun v hv => digital_accepts hg hd (h5 v hv)⟩]
            rfl
      | none =>
        cases m with
        | fcnt m =>
          have ht : t = .UR20_2FCNT_100 := by
            cases t <;> simp only [IsCreated] at hg; rfl
          subst ht
          have hm2 : m.chParams.length = 2 := hg
          change (vs.length = 2 ∧ _ → _) ∧ (¬ (vs.length = 2 ∧ _) → _)
          by_cases hl : vs.length = 2
          · obtain ⟨a, b, rfl⟩ := length_two hl
            rw [fcnt_encode m hm2]
            constructor
            · rintro ⟨-, h⟩
              obtain ⟨x, hx⟩ := counterWords_some (h a (by simp))
              obtain ⟨y, hy⟩ := counterWords_some (h b (by simp))
              rw [hx, hy]
              exact ⟨_, rfl⟩
            · intro h
              split
              · rename_i x y hx hy
                refine absurd ⟨hl, fun v hv => ?_⟩ h
                simp only [List.mem_cons, List.not_mem_nil, or_false] at hv
                rcases hv with rfl | rfl
                · exact counterWords_accepts hx
                · exact counterWords_accepts hy
              · rfl
          · refine ⟨fun h => absurd h.1 hl, fun _ => ?_⟩
            exact if_pos hl
        | com m => exact absurd ⟨m, rfl⟩ hs
        | dout m => rcases m with ⟨v, ps⟩; cases v <;> cases hd
        | do16 => cases hd
        | ro m => cases hd
        | ao m => cases ha
        | aoDiag m => cases ha
        | di m => exact absurd hb.symm hn
        | rtd m => exact absurd hb.symm hn
        | tc m => exact absurd hb.symm hn
        | sil => exact absurd hb.symm hn
        | ai m => exact absurd hb.symm hn
        | aiDiag m => exact absurd hb.symm hn
        | aiI m => exact absurd hb.symm hn
  refine ⟨fun h => ?_, key.2⟩
  obtain ⟨ws, hw⟩ := key.1 h
  exact ⟨ws, hw, by rw [Module.processOutputValues_length m vs ws hw, hb]⟩

/-- C75 for modules without outputs. -/
theorem C75_no_outputs (t : ModuleType) (par : List Word) (m : Module)
    (hc : Module.create t par = .ok m) (hn : outputBytes t par = 0) (vs : List ChannelValue) :
    (vs = [] ∨ vs.length = t.channelCount → m.processOutputValues vs = .ok []) ∧
    (vs ≠ [] ∧ vs.length ≠ t.channelCount → m.processOutputValues vs = .err .channelValue) := by
  rw [noOutput_encode (by rw [(create_bytes hc).2, hn]), defaultProcessOutputValues,
    (created_channels (create_good hc)).1]
  constructor
  · rintro (rfl | h)
    · rfl
    · rw [if_neg (by simp [h])]
  · rintro ⟨h1, h2⟩
    rw [if_pos (by simpa using ⟨h1, h2⟩)]

/-- C75 for the serial module. -/
theorem C75_serial (par : List Word) (m : Module)
    (hc : Module.create .UR20_1COM_232_485_422 par = .ok m) (vs : List ChannelValue) :
    (∀ o : RsOut, vs = [.comRsOut o] →
      (o.data.length + 2 ≤ outputBytes .UR20_1COM_232_485_422 par →
        o.txCnt ≤ 3 → o.rxCntAck ≤ 3 → ∃ ws, m.processOutputValues vs = .ok ws ∧
          2 * ws.length = outputBytes .UR20_1COM_232_485_422 par) ∧
      (outputBytes .UR20_1COM_232_485_422 par < o.data.length + 2 →
        m.processOutputValues vs = .err .bufferLength) ∧
      (o.data.length + 2 ≤ outputBytes .UR20_1COM_232_485_422 par →
        3 < o.txCnt ∨ 3 < o.rxCntAck → m.processOutputValues vs = .err .sequenceNumber)) ∧
    ((∀ o : RsOut, vs ≠ [.comRsOut o]) → m.processOutputValues vs = .err .channelValue) := by
  have hg := create_good hc
  have hb := (create_bytes hc).2
  cases m <;> try exact hg.elim
  rename_i m
  have hcap : m.processDataLen.byteCount = m.processDataLen.userDataLen + 2 := byteCount_eq _
  have hb' : m.processDataLen.byteCount = outputBytes .UR20_1COM_232_485_422 par := hb
  have hcc : capacity m.processDataLen = m.processDataLen.userDataLen := by
    cases m.processDataLen <;> rfl
  constructor
  · rintro o rfl
    simp only [Module.processOutputValues, Com.Mod.processOutputValues]
    refine ⟨fun h1 h2 h3 => ?_, fun h1 => ?_, fun h1 h2 => ?_⟩
    · obtain ⟨ws, h4, h5, -⟩ := C22_registers m o (by omega) (by omega) (by omega)
      exact ⟨ws, h4, by omega⟩
    · exact if_pos (by omega)
    · rw [if_neg (by omega), ((C20_errors o m.processDataLen).1).2 h2]
      rfl
  · intro h
    simp only [Module.processOutputValues, Com.Mod.processOutputValues]

/-! Cases: a safety module without outputs, a digital module, a counter, a serial frame. -/

example : ∃ m, Module.create .UR20_PF_O_1DI_SIL [] = .ok m ∧
    m.processOutputData [] = .ok [] ∧ m.processOutputData [1#16] = .err .bufferLength ∧
    m.processOutputValues [] = .ok [] ∧ m.processOutputValues [.bit true] = .err .channelValue ∧
    m.processInputData [3#16] = .err .bufferLength := ⟨.sil, by decide⟩

example : ∃ m, Module.create .UR20_4DI_P [0, 0, 0, 5] = .ok m ∧
    m.processOutputData [] = .ok [.none, .none, .none, .none] ∧
    m.processOutputValues [.bit true, .disabled, .none, .none] = .ok [] ∧
    m.processOutputValues [.bit true] = .err .channelValue ∧
    m.processInputData [] = .err .bufferLength := by
  refine ⟨.di ⟨.UR20_4DI_P, [⟨.no⟩, ⟨.no⟩, ⟨.no⟩, ⟨.ms40⟩]⟩, ?_⟩
  decide +kernel

example : outputBytes .UR20_2FCNT_100 [0, 0] ≠ 0 ∧
    (∀ v ∈ [ChannelValue.fcntOut ⟨8388607000, some .stop⟩, .disabled],
      Accepts .UR20_2FCNT_100 v) ∧ ¬ Accepts .UR20_2FCNT_100 (.fcntOut ⟨8388607001, none⟩) := by
  refine ⟨by decide, ?_, ?_⟩
  · intro v hv
    simp only [List.mem_cons, List.not_mem_nil, or_false] at hv
    rcases hv with rfl | rfl
    · exact .inr ⟨_, rfl, by norm_num⟩
    · exact .inl rfl
  · rintro (h | ⟨x, h, h'⟩)
    · cases h
    · cases h
      exact absurd h' (by norm_num)

example : IsFrame [0x0280#16, 7#16] ∧ ¬ IsFrame [0x0380#16, 7#16] ∧ ¬ IsFrame [] := by
  refine ⟨⟨_, rfl, by decide⟩, ?_, ?_⟩
  · rintro ⟨w, h, h'⟩
    cases h
    exact absurd h' (by decide)
  · rintro ⟨w, h, -⟩
    cases h

/-- C76: the default module of a type is the module created from the factory parameter words. -/
theorem C76_default (t : ModuleType) :
    Module.default? t = match Module.create t (factoryWords t) with
      | .ok m => some m
      | _ => none := by
  cases t <;> decide +kernel

example : Module.create .UR20_4AI_UI_12 [0, 1, 8, 1, 8, 1, 8, 1, 8] =
    .ok (.ai (Ai.Mod.default .UR20_4AI_UI_12)) := by decide +kernel

/-- C76: default modules exist exactly for the supported module types. -/
theorem C76_exists (t : ModuleType) :
    (∃ m, Module.default? t = some m) ↔ ∃ par m, Module.create t par = .ok m := by
  constructor
  · rintro ⟨m, h⟩
    rw [C76_default] at h
    split at h
    · rename_i m' h'
      exact ⟨_, m', h'⟩
    · cases h
  · rintro ⟨par, m, h⟩
    have hg := create_good h
    cases t <;> first | exact ⟨_, rfl⟩ | (cases m <;> exact hg.elim)

/-- C76: every channel of a default module for current, voltage or temperature is disabled,
whatever the input registers say. -/
theorem C76_inputs_disabled (t : ModuleType) (m : Module) (hm : Module.default? t = some m)
    (h0 : inputChannels t ≠ 0) (ht : inputBytes t (factoryWords t) = 2 * inputChannels t)
    (ws : List Word) (hl : ws.length = inputChannels t) :
    m.processInputData ws = .ok (List.replicate (inputChannels t) .disabled) := by
  have four : ∀ {α : Type} (l : List α), l.length = 4 → ∃ a b c d, l = [a, b, c, d] := by
    intro α l h
    match l, h with
    | [a, b, c, d], _ => exact ⟨a, b, c, d, rfl⟩
  have eight : ∀ {α : Type} (l : List α), l.length = 8 →
      ∃ a b c d e f g h, l = [a, b, c, d, e, f, g, h] := by
    intro α l h
    match l, h with
    | [a, b, c, d, e, f, g, h], _ => exact ⟨a, b, c, d, e, f, g, h, rfl⟩
  cases t <;> cases hm <;> first
    | exact absurd rfl h0
    | exact absurd ht (by decide)
    | (obtain ⟨a, b, c, d, rfl⟩ := four ws hl; rfl)
    | (obtain ⟨a, b, c, d, e, f, g, h, rfl⟩ := eight ws hl; rfl)

example : inputChannels .UR20_8AI_I_16_DIAG_HD = 8 ∧
    inputBytes .UR20_8AI_I_16_DIAG_HD (factoryWords .UR20_8AI_I_16_DIAG_HD) = 2 * 8 ∧
    inputBytes .UR20_4AI_TC_DIAG (factoryWords .UR20_4AI_TC_DIAG) = 2 * 4 := by decide

/-- C76: a default analog output module shows disabled channels and writes zeros, whatever the
registers and the written numbers are. -/
theorem C76_outputs_disabled (t : ModuleType) (m : Module) (hm : Module.default? t = some m)
    (ht : t = .UR20_4AO_UI_16 ∨ t = .UR20_4AO_UI_16_DIAG) :
    (∀ ws : List Word, ws.length = 4 →
      m.processOutputData ws = .ok (List.replicate 4 .disabled)) ∧
    (∀ vs : List ChannelValue, vs.length = 4 → (∀ v ∈ vs, Accepts t v) →
      m.processOutputValues vs = .ok [0, 0, 0, 0]) := by
  have hdis : ∀ v, Accepts .UR20_4AO_UI_16 v → valueToU16 v .Disabled .S7 = .ok 0#16 := by
    rintro v (rfl | ⟨x, rfl⟩)
    · rfl
    · rfl
  have hA : Accepts t = Accepts .UR20_4AO_UI_16 := by
    rcases ht with rfl | rfl <;> rfl
  constructor
  · intro ws hl
    match ws, hl with
    | [a, b, c, d], _ =>
      rcases ht with rfl | rfl <;> cases hm <;> rfl
  · intro vs hl hv
    rw [hA] at hv
    match vs, hl with
    | [a, b, c, d], _ =>
      have ha := hdis a (hv a (by simp))
      have hb := hdis b (hv b (by simp))
      have hc := hdis c (hv c (by simp))
      have hd := hdis d (hv d (by simp))
      have hr : Module.create t (factoryWords t) = .ok m := by
        rcases ht with rfl | rfl <;> cases hm <;> decide +kernel
      have hps : analogOutputs m = some (List.replicate 4 (.Disabled, .S7)) := by
        rcases ht with rfl | rfl <;> cases hm <;> rfl
      rw [analogOutputs_encode hr hps _ rfl]
      simp only [List.replicate, List.zip_cons_cons, List.zip_nil_right, mapRes, ha, hb, hc, hd]
      rfl

example : ∀ v ∈ [ChannelValue.disabled, .decimal32 (F32.lit 20), .disabled, .disabled],
    Accepts .UR20_4AO_UI_16 v := by
  intro v hv
  simp only [List.mem_cons, List.not_mem_nil, or_false] at hv
  rcases hv with rfl | rfl | rfl | rfl
  · exact .inl rfl
  · exact .inr ⟨_, rfl⟩
  · exact .inl rfl
  · exact .inl rfl

end Ur20
