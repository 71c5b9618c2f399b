import Verif.Lemmas.Params

/-! Creating modules from their parameter registers. -/

namespace Ur20

open Spec

theorem checked_ok {α : Type} {Q : α → Prop} (a : α) (h : Q a) : Checked (.ok a) True Q :=
  ⟨fun _ => ⟨a, rfl⟩, fun h => absurd trivial h, fun b hb => by cases hb; exact h⟩

theorem RegParser.step {α β : Type} {f : Word → Res α} {m : Nat} {R : α → Word → Prop}
    (h : RegParser f m R) {data : List Word} {k : Nat} (hk : k < data.length)
    {rest : α → Res β} {P' : Prop} {Q' : β → Prop}
    (hr : ∀ a, (∃ w, data[k]? = some w ∧ R a w) → Checked (rest a) P' Q') :
    Checked ((idx data k).bind fun w => (f w).bind rest)
      ((∃ w, data[k]? = some w ∧ w.toNat ≤ m) ∧ P') Q' := by
  have := (h.at data k hk).bind (f := rest) (P' := P') (Q' := Q') fun a _ ha => hr a ha
  rw [idx_of_lt hk] at this ⊢
  exact this

theorem step_any {β : Type} {data : List Word} {k : Nat} (hk : k < data.length)
    {rest : Word → Res β} {P' : Prop} {Q' : β → Prop}
    (hr : ∀ a, data[k]? = some a → Checked (rest a) P' Q') :
    Checked ((idx data k).bind rest)
      ((∃ w, data[k]? = some w ∧ w.toNat ≤ 65535) ∧ P') Q' :=
  any_parser.step hk fun a ⟨w, h1, h2⟩ => hr a (by rw [h1, h2])

theorem checked_channels {β : Type} (f : Nat → Res β) (g : β → List (Word → Prop))
    (data : List Word) (off n : Nat) (ms : List Nat) (hg : ∀ b, (g b).length = ms.length)
    (h : ∀ i, i < n → Checked (f i) (Within data (off + i * ms.length) ms)
      (fun b => Fits data (off + i * ms.length) (g b))) :
    Checked (mapRes f (List.range n)) (Within data off (List.replicate n ms).flatten)
      (fun bs => bs.length = n ∧ Fits data off (bs.flatMap g)) := by
  refine (Checked.mapRes (List.range n) fun i hi => h i (List.mem_range.1 hi)).weaken
    (within_replicate data off n ms).symm ?_
  intro bs _ hbs
  have hl : bs.length = n := by simpa using hbs.length_eq.symm
  refine ⟨hl, ?_⟩
  have := fits_channels data g ms.length hg off 0 bs (by
    rw [hl, ← List.range_eq_range']; exact hbs)
  simpa using this

/-- One value per channel and one register per value. -/
theorem checked_single {α β : Type} {f : Word → Res α} {m : Nat} {R : α → Word → Prop}
    (h : RegParser f m R) (c : α → β) (g : β → Word → Prop) (hg : ∀ a, g (c a) = R a)
    (data : List Word) (n : Nat) (hn : n ≤ data.length) :
    Checked (mapRes (fun i => (idx data i).bind fun w => (f w).bind fun a => .ok (c a))
        (List.range n))
      (Within data 0 (List.replicate n m)) (fun bs => bs.length = n ∧
        Fits data 0 (bs.flatMap fun b => [g b])) := by
  have e : List.replicate n m = (List.replicate n [m]).flatten := by
    simp [List.flatten_replicate_singleton]
  rw [e]
  refine checked_channels _ _ data 0 n [m] (fun _ => rfl) fun i hi => ?_
  simp only [List.length_singleton, Nat.mul_one, Nat.zero_add, Within, Fits, List.map]
  refine h.step (by omega) fun a ha => checked_ok _ ⟨?_, trivial⟩
  rw [hg]
  exact ha

theorem Di.checked (v : Di.Variant) (ws : List Word)
    (h : v.moduleType.channelCount ≤ ws.length) :
    Checked (Di.fromModbusParameterData v ws)
      (Within ws 0 (List.replicate v.moduleType.channelCount 5))
      (fun m => m.variant = v ∧ m.chParams.length = v.moduleType.channelCount ∧
        Fits ws 0 (registers (.di m))) := by
  have h1 := checked_single InputDelay.parser Di.ChannelParameters.mk
    (fun c => holds c.inputDelay) (fun _ => rfl) ws v.moduleType.channelCount h
  have := h1.bind (f := fun p => .ok (Di.Mod.mk v p)) (P' := True) (Q' := fun m =>
    m.variant = v ∧ m.chParams.length = v.moduleType.channelCount ∧
        Fits ws 0 (registers (.di m))) fun p _ hp => checked_ok _ ⟨rfl, hp.1, hp.2⟩
  simp only [Di.fromModbusParameterData, Di.parametersFromRawData, if_neg (by omega : ¬ ws.length <
    v.moduleType.channelCount), Res.bind_eq, Res.pure_eq]
  exact this.weaken (by simp) fun _ _ q => q

theorem Do.checked (v : Do.Variant) (ws : List Word)
    (h : v.moduleType.channelCount ≤ ws.length) :
    Checked (Do.fromModbusParameterData v ws)
      (Within ws 0 (List.replicate v.moduleType.channelCount 1))
      (fun m => m.variant = v ∧ m.chParams.length = v.moduleType.channelCount ∧
        Fits ws 0 (registers (.dout m))) := by
  have h1 := checked_single bool_parser Do.ChannelParameters.mk
    (fun c => holds c.substituteValue) (fun _ => rfl) ws v.moduleType.channelCount h
  have := h1.bind (f := fun p => .ok (Do.Mod.mk v p)) (P' := True) (Q' := fun m =>
    m.variant = v ∧ m.chParams.length = v.moduleType.channelCount ∧
        Fits ws 0 (registers (.dout m))) fun p _ hp => checked_ok _ ⟨rfl, hp.1, hp.2⟩
  simp only [Do.fromModbusParameterData, Do.parametersFromRawData, if_neg (by omega : ¬ ws.length <
    v.moduleType.channelCount), Res.bind_eq, Res.pure_eq]
  exact this.weaken (by simp) fun _ _ q => q

theorem Ro.checked (ws : List Word) (h : 4 ≤ ws.length) :
    Checked (Ro.fromModbusParameterData ws) (Within ws 0 (List.replicate 4 1))
      (fun m => m.chParams.length = 4 ∧ Fits ws 0 (registers (.ro m))) := by
  have h1 := checked_single bool_parser Do.ChannelParameters.mk
    (fun c => holds c.substituteValue) (fun _ => rfl) ws 4 h
  have := h1.bind (f := fun p => .ok (Ro.Mod.mk p)) (P' := True) (Q' := fun m =>
    m.chParams.length = 4 ∧ Fits ws 0 (registers (.ro m)))
    fun p _ hp => checked_ok _ ⟨hp.1, hp.2⟩
  simp only [Ro.fromModbusParameterData, Ro.parametersFromRawData, if_neg (by omega : ¬ ws.length <
    4), Res.bind_eq, Res.pure_eq]
  exact this.weaken (by simp) fun _ _ q => q

theorem Fcnt.checked (ws : List Word) (h : 2 ≤ ws.length) :
    Checked (Fcnt.fromModbusParameterData ws) (Within ws 0 [16, 16])
      (fun m => m.chParams.length = 2 ∧ Fits ws 0 (registers (.fcnt m))) := by
  have h1 := checked_single InputFilter.parser Fcnt.ChannelParameters.mk
    (fun c => holds c.inputFilter) (fun _ => rfl) ws 2 h
  have := h1.bind (f := fun p => .ok (Fcnt.Mod.mk p)) (P' := True) (Q' := fun m =>
    m.chParams.length = 2 ∧ Fits ws 0 (registers (.fcnt m)))
    fun p _ hp => checked_ok _ ⟨hp.1, hp.2⟩
  simp only [Fcnt.fromModbusParameterData, Fcnt.parametersFromRawData, if_neg (by omega :
    ¬ ws.length < 2), Res.bind_eq, Res.pure_eq]
  exact this.weaken (by simp) fun _ _ q => q

theorem substitute_holds (rng : AnalogUIRange) (fmt : DataFormat) (w : Word) :
    holdsSubstitute rng fmt ((u16ToAnalogUiValue w rng fmt).getD (F32.lit 0)) w := by
  unfold holdsSubstitute
  split
  · rename_i h
    subst h
    rfl
  · cases rng <;> first | rfl | contradiction

theorem Ao.checked (ws : List Word) (h : 12 ≤ ws.length) :
    Checked (Ao.fromModbusParameterData ws)
      (Within ws 0 (List.replicate 4 [1, 8, 65535]).flatten)
      (fun m => m.chParams.length = 4 ∧ Fits ws 0 (registers (.ao m))) := by
  have h1 := checked_channels (Ao.channelFromRawData ws) (fun c =>
    [holds c.dataFormat, holds c.outputRange,
      holdsSubstitute c.outputRange c.dataFormat c.substituteValue]) ws 0 4 [1, 8, 65535]
    (fun _ => rfl) (fun i hi => by
      simp only [Ao.channelFromRawData, Res.bind_eq, Res.pure_eq, List.length_cons,
        List.length_nil, Nat.zero_add, Within, Fits, List.map]
      refine DataFormat.parser.step (by omega) fun fmt h1 => ?_
      refine AnalogUIRange.parser.step (by omega) fun rng h2 => ?_
      refine step_any (by omega) fun w h3 => ?_
      exact checked_ok _ ⟨h1, h2, ⟨w, h3, substitute_holds rng fmt w⟩, trivial⟩)
  have := h1.bind (f := fun p => .ok (Ao.Mod.mk p)) (P' := True) (Q' := fun m =>
    m.chParams.length = 4 ∧ Fits ws 0 (registers (.ao m)))
    fun p _ hp => checked_ok _ ⟨hp.1, hp.2⟩
  simp only [Ao.fromModbusParameterData, Ao.parametersFromRawData, if_neg (by omega :
    ¬ ws.length < 12), Res.bind_eq, Res.pure_eq]
  exact this.weaken (by simp) fun _ _ q => q

theorem AoDiag.checked (ws : List Word) (h : 16 ≤ ws.length) :
    Checked (AoDiag.fromModbusParameterData ws)
      (Within ws 0 (List.replicate 4 [1, 8, 65535, 1]).flatten)
      (fun m => m.chParams.length = 4 ∧ Fits ws 0 (registers (.aoDiag m))) := by
  have h1 := checked_channels (AoDiag.channelFromRawData ws) (fun c =>
    [holds c.dataFormat, holds c.outputRange,
      holdsSubstitute c.outputRange c.dataFormat c.substituteValue,
      holds c.channelDiagnostics]) ws 0 4 [1, 8, 65535, 1]
    (fun _ => rfl) (fun i hi => by
      simp only [AoDiag.channelFromRawData, Res.bind_eq, Res.pure_eq, List.length_cons,
        List.length_nil, Nat.zero_add, Within, Fits, List.map]
      refine DataFormat.parser.step (by omega) fun fmt h1 => ?_
      refine AnalogUIRange.parser.step (by omega) fun rng h2 => ?_
      refine step_any (by omega) fun w h3 => ?_
      refine bool_parser.step (by omega) fun d h4 => ?_
      exact checked_ok _ ⟨h1, h2, ⟨w, h3, substitute_holds rng fmt w⟩, h4, trivial⟩)
  have := h1.bind (f := fun p => .ok (AoDiag.Mod.mk p)) (P' := True) (Q' := fun m =>
    m.chParams.length = 4 ∧ Fits ws 0 (registers (.aoDiag m)))
    fun p _ hp => checked_ok _ ⟨hp.1, hp.2⟩
  simp only [AoDiag.fromModbusParameterData, AoDiag.parametersFromRawData, if_neg (by omega :
    ¬ ws.length < 16), Res.bind_eq, Res.pure_eq]
  exact this.weaken (by simp) fun _ _ q => q

theorem within_cons (data : List Word) (k m : Nat) (ms : List Nat) :
    Within data k (m :: ms) ↔
      (∃ w, data[k]? = some w ∧ w.toNat ≤ m) ∧ Within data (k + 1) ms := Iff.rfl

theorem Rtd.checked (ws : List Word) (h : 29 ≤ ws.length) :
    Checked (Rtd.fromModbusParameterData ws)
      (Within ws 0 (2 :: (List.replicate 4 [18, 2, 5, 1, 1, 65535, 65535]).flatten))
      (fun m => m.chParams.length = 4 ∧ Fits ws 0 (registers (.rtd m))) := by
  have h1 := checked_channels (Rtd.channelFromRawData ws) (fun c =>
    [holds c.measurementRange, holds c.connectionType, holds c.conversionTime,
      holds c.channelDiagnostics, holds c.limitValueMonitoring, holdsInt c.highLimitValue,
      holdsInt c.lowLimitValue]) ws 1 4 [18, 2, 5, 1, 1, 65535, 65535]
    (fun _ => rfl) (fun i hi => by
      simp only [Rtd.channelFromRawData, Res.bind_eq, Res.pure_eq, List.length_cons,
        List.length_nil, Nat.zero_add, Within, Fits, List.map]
      rw [Nat.add_comm 1 (i * _)]
      refine RtdRange.parser.step (by omega) fun a1 h1 => ?_
      refine ConnectionType.parser.step (by omega) fun a2 h2 => ?_
      refine ConversionTime.parser.step (by omega) fun a3 h3 => ?_
      refine bool_parser.step (by omega) fun a4 h4 => ?_
      refine bool_parser.step (by omega) fun a5 h5 => ?_
      refine step_any (by omega) fun a6 h6 => ?_
      refine step_any (by omega) fun a7 h7 => ?_
      exact checked_ok _ ⟨h1, h2, h3, h4, h5, ⟨_, h6, rfl⟩, ⟨_, h7, rfl⟩, trivial⟩)
  rw [within_cons]
  simp only [Rtd.fromModbusParameterData, Rtd.parametersFromRawData, if_neg (by omega :
    ¬ ws.length < 29), Res.bind_eq, Res.pure_eq, Res.bind_assoc]
  refine TemperatureUnit.parser.step (by omega) fun tu htu => ?_
  have := h1.bind (f := fun p => .ok (Rtd.Mod.mk tu p)) (P' := True) (Q' := fun m =>
    m.chParams.length = 4 ∧ Fits ws 0 (registers (.rtd m)))
    fun p _ hp => checked_ok _ ⟨hp.1, htu, hp.2⟩
  exact this.weaken (by simp) fun _ _ q => q

theorem AiDiag.checked (ws : List Word) (h : 21 ≤ ws.length) :
    Checked (AiDiag.fromModbusParameterData ws)
      (Within ws 0 (3 :: (List.replicate 4 [1, 1, 1, 1, 8]).flatten))
      (fun m => m.chParams.length = 4 ∧ Fits ws 0 (registers (.aiDiag m))) := by
  have h1 := checked_channels (AiDiag.channelFromRawData ws) (fun c =>
    [holds c.channelDiagnostics, holds c.diagShortCircuit, holds c.diagLineBreak,
      holds c.dataFormat, holds c.measurementRange]) ws 1 4 [1, 1, 1, 1, 8]
    (fun _ => rfl) (fun i hi => by
      simp only [AiDiag.channelFromRawData, Res.bind_eq, Res.pure_eq, List.length_cons,
        List.length_nil, Nat.zero_add, Within, Fits, List.map]
      rw [Nat.add_comm 1 (i * _)]
      refine bool_parser.step (by omega) fun a1 h1 => ?_
      refine bool_parser.step (by omega) fun a2 h2 => ?_
      refine bool_parser.step (by omega) fun a3 h3 => ?_
      refine DataFormat.parser.step (by omega) fun a4 h4 => ?_
      refine AnalogUIRange.parser.step (by omega) fun a5 h5 => ?_
      exact checked_ok _ ⟨h1, h2, h3, h4, h5, trivial⟩)
  rw [within_cons]
  simp only [AiDiag.fromModbusParameterData, AiDiag.parametersFromRawData, if_neg (by omega :
    ¬ ws.length < 21), Res.bind_eq, Res.pure_eq, Res.bind_assoc]
  refine FrequencySuppression.parser.step (by omega) fun tu htu => ?_
  have := h1.bind (f := fun p => .ok (AiDiag.Mod.mk tu p)) (P' := True) (Q' := fun m =>
    m.chParams.length = 4 ∧ Fits ws 0 (registers (.aiDiag m)))
    fun p _ hp => checked_ok _ ⟨hp.1, htu, hp.2⟩
  exact this.weaken (by simp) fun _ _ q => q

theorem Ai.checked (v : Ai.Variant) (ws : List Word) (h : 9 ≤ ws.length) :
    Checked (Ai.fromModbusParameterData v ws)
      (Within ws 0 (3 :: (List.replicate 4 [1, 8]).flatten))
      (fun m => m.variant = v ∧ m.chParams.length = 4 ∧ Fits ws 0 (registers (.ai m))) := by
  have hv : v.moduleType.channelCount = 4 := by cases v <;> rfl
  have h1 := checked_channels (Ai.channelFromRawData ws) (fun c =>
    [holds c.dataFormat, holds c.measurementRange]) ws 1 4 [1, 8]
    (fun _ => rfl) (fun i hi => by
      simp only [Ai.channelFromRawData, Res.bind_eq, Res.pure_eq, List.length_cons,
        List.length_nil, Nat.zero_add, Within, Fits, List.map]
      rw [Nat.add_comm 1 (i * _)]
      refine DataFormat.parser.step (by omega) fun a4 h4 => ?_
      refine AnalogUIRange.parser.step (by omega) fun a5 h5 => ?_
      exact checked_ok _ ⟨h4, h5, trivial⟩)
  rw [within_cons]
  simp only [Ai.fromModbusParameterData, Ai.parametersFromRawData, hv, if_neg (by omega :
    ¬ ws.length < 1 + 2 * 4), Res.bind_eq, Res.pure_eq, Res.bind_assoc]
  refine FrequencySuppression.parser.step (by omega) fun tu htu => ?_
  have := h1.bind (f := fun p => .ok (Ai.Mod.mk v tu p)) (P' := True) (Q' := fun m =>
    m.variant = v ∧ m.chParams.length = 4 ∧ Fits ws 0 (registers (.ai m)))
    fun p _ hp => checked_ok _ ⟨rfl, hp.1, htu, hp.2⟩
  exact this.weaken (by simp) fun _ _ q => q

theorem AiI.checked (ws : List Word) (h : 33 ≤ ws.length) :
    Checked (AiI.fromModbusParameterData ws)
      (Within ws 0 (3 :: (List.replicate 8 [1, 1, 1, 2]).flatten))
      (fun m => m.chParams.length = 8 ∧ Fits ws 0 (registers (.aiI m))) := by
  have h1 := checked_channels (AiI.channelFromRawData ws) (fun c =>
    [holds c.channelDiagnostics, holds c.diagShortCircuit,
      holds c.dataFormat, holds c.measurementRange]) ws 1 8 [1, 1, 1, 2]
    (fun _ => rfl) (fun i hi => by
      simp only [AiI.channelFromRawData, Res.bind_eq, Res.pure_eq, List.length_cons,
        List.length_nil, Nat.zero_add, Within, Fits, List.map]
      rw [Nat.add_comm 1 (i * _)]
      refine bool_parser.step (by omega) fun a1 h1 => ?_
      refine bool_parser.step (by omega) fun a2 h2 => ?_
      refine DataFormat.parser.step (by omega) fun a4 h4 => ?_
      refine AnalogIRange.parser.step (by omega) fun a5 h5 => ?_
      exact checked_ok _ ⟨h1, h2, h4, h5, trivial⟩)
  rw [within_cons]
  simp only [AiI.fromModbusParameterData, AiI.parametersFromRawData, if_neg (by omega :
    ¬ ws.length < 33), Res.bind_eq, Res.pure_eq, Res.bind_assoc]
  refine FrequencySuppression.parser.step (by omega) fun tu htu => ?_
  have := h1.bind (f := fun p => .ok (AiI.Mod.mk tu p)) (P' := True) (Q' := fun m =>
    m.chParams.length = 8 ∧ Fits ws 0 (registers (.aiI m)))
    fun p _ hp => checked_ok _ ⟨hp.1, htu, hp.2⟩
  exact this.weaken (by simp) fun _ _ q => q

theorem Com.checked (ws : List Word) (h : 10 ≤ ws.length) :
    Checked (Com.fromModbusParameterData ws)
      (Within ws 0 [1, 3, 11, 1, 2, 2, 1, 1, 255, 255])
      (fun m => m.chParams.length = 1 ∧ Fits ws 0 (registers (.com m))) := by
  simp only [Com.fromModbusParameterData, Com.parametersFromRawData, if_neg (by omega :
    ¬ ws.length < 10), Res.bind_eq, Res.pure_eq, Res.bind_assoc, Within, Fits, List.map]
  refine ProcessDataLength.parser.step (by omega) fun a1 h1 => ?_
  refine OperatingMode.parser.step (by omega) fun a2 h2 => ?_
  refine BaudRate.parser.step (by omega) fun a3 h3 => ?_
  refine StopBit.parser.step (by omega) fun a4 h4 => ?_
  refine Parity.parser.step (by omega) fun a5 h5 => ?_
  refine FlowControl.parser.step (by omega) fun a6 h6 => ?_
  refine DataBits.parser.step (by omega) fun a7 h7 => ?_
  refine bool_parser.step (by omega) fun a8 h8 => ?_
  refine char_parser.step (by omega) fun a9 h9 => ?_
  refine char_parser.step (by omega) fun a10 h10 => ?_
  exact checked_ok _ ⟨rfl, h1, h2, h3, h4, h5, h6, h7, h8, h9, h10, trivial⟩

theorem Tc.chunksExact7_eq (l : List Word) :
    Tc.chunksExact7 l =
      (List.range (l.length / 7)).map fun i => (l.drop (7 * i)).take 7 := by
  fun_induction Tc.chunksExact7 l with
  | case1 a b c d e f g l ih =>
    have h : (a :: b :: c :: d :: e :: f :: g :: l).length / 7 = l.length / 7 + 1 := by
      simp only [List.length_cons]; omega
    rw [ih, h, List.range_succ_eq_map]
    simp [Nat.mul_add, List.drop]
  | case2 l h =>
    have : l.length / 7 = 0 := by
      match l, h with
      | [], _ | [_], _ | [_, _], _ | [_, _, _], _ | [_, _, _, _], _ | [_, _, _, _, _], _
      | [_, _, _, _, _, _], _ => simp
      | a :: b :: c :: d :: e :: f :: g :: l, h => exact absurd rfl (h a b c d e f g l)
    simp [this]

theorem fits_shift (a b : List Word) (k l : Nat) (ps : List (Word → Prop))
    (h : ∀ j, j < ps.length → a[k + j]? = b[l + j]?) : Fits a k ps ↔ Fits b l ps := by
  rw [fits_iff, fits_iff]
  have hj : ∀ (i : Nat) (p : Word → Prop), ps[i]? = some p → i < ps.length :=
    fun i p hp => (List.getElem?_eq_some_iff.1 hp).1
  constructor
  · intro H i p hp; rw [← h i (hj i p hp)]; exact H i p hp
  · intro H i p hp; rw [h i (hj i p hp)]; exact H i p hp

/-- The registers of one thermocouple channel. -/
def tcRegisters (c : Tc.ChannelParameters) : List (Word → Prop) :=
  [holds c.measurementRange, holds c.coldJunctionCompensation, holds c.conversionTime,
    holds c.channelDiagnostics, holds c.limitValueMonitoring, holdsInt c.highLimitValue,
    holdsInt c.lowLimitValue]

theorem Tc.checked_chunk (c : List Word) (h : c.length = 7) :
    Checked (Tc.channelFromChunk c) (Within c 0 [19, 4, 5, 1, 1, 65535, 65535])
      (fun p => Fits c 0 (tcRegisters p)) := by
  simp only [Tc.channelFromChunk, Res.bind_eq, Res.pure_eq, Within, Fits, List.map, tcRegisters]
  refine TcRange.parser.step (by omega) fun a1 h1 => ?_
  refine ColdJunctionCompensation.parser.step (by omega) fun a2 h2 => ?_
  refine ConversionTime.parser.step (by omega) fun a3 h3 => ?_
  refine bool_parser.step (by omega) fun a4 h4 => ?_
  refine bool_parser.step (by omega) fun a5 h5 => ?_
  refine step_any (by omega) fun a6 h6 => ?_
  refine step_any (by omega) fun a7 h7 => ?_
  exact checked_ok _ ⟨h1, h2, h3, h4, h5, ⟨_, h6, rfl⟩, ⟨_, h7, rfl⟩, trivial⟩

theorem Tc.checked_channels (ws : List Word) :
    Checked (mapRes Tc.channelFromChunk (Tc.chunksExact7 (ws.drop 1)))
      (Within ws 1 (List.replicate ((ws.length - 1) / 7) [19, 4, 5, 1, 1, 65535, 65535]).flatten)
      (fun cs => cs.length = (ws.length - 1) / 7 ∧ Fits ws 1 (cs.flatMap tcRegisters)) := by
  rw [Tc.chunksExact7_eq, mapRes_map, List.length_drop]
  refine Ur20.checked_channels _ _ ws 1 _ [19, 4, 5, 1, 1, 65535, 65535] (fun _ => rfl)
    fun i hi => ?_
  have hl : i * 7 + 7 ≤ ws.length - 1 := by omega
  have hs : ∀ ps : List (Word → Prop), ps.length = 7 →
      (Fits (((ws.drop 1).drop (7 * i)).take 7) 0 ps ↔
        Fits ws (1 + i * [19, 4, 5, 1, 1, 65535, 65535].length) ps) := by
    intro ps hp
    refine fits_shift _ _ _ _ _ fun j hj => ?_
    rw [List.getElem?_take, if_pos (by omega), List.getElem?_drop, List.getElem?_drop]
    simp only [List.length_cons, List.length_nil]
    congr 1
    omega
  have := Tc.checked_chunk (((ws.drop 1).drop (7 * i)).take 7) (by simp; omega)
  exact this.weaken (hs _ rfl) fun c _ hc => (hs _ rfl).1 hc

theorem Tc.toArray4_ok (l : List Tc.ChannelParameters) (h : l.length = 4) :
    ∃ v, Tc.toArray4 l = .ok v ∧ v.toList = l := by
  rcases l with _ | ⟨a, _ | ⟨b, _ | ⟨c, _ | ⟨d, _ | ⟨e, l⟩⟩⟩⟩⟩ <;> simp at h
  exact ⟨_, rfl, rfl⟩

theorem Tc.toArray4_panic (l : List Tc.ChannelParameters) (h : l.length ≠ 4) :
    Tc.toArray4 l = .panic := by
  rcases l with _ | ⟨a, _ | ⟨b, _ | ⟨c, _ | ⟨d, _ | ⟨e, l⟩⟩⟩⟩⟩ <;> first | rfl | simp at h

theorem Tc.checked (ws : List Word) (h : 29 ≤ ws.length) (h' : ws.length < 36) :
    Checked (Tc.fromModbusParameterData ws)
      (Within ws 0 (2 :: (List.replicate 4 [19, 4, 5, 1, 1, 65535, 65535]).flatten))
      (fun m => Fits ws 0 (registers (.tc m))) := by
  have h1 := Tc.checked_channels ws
  rw [show (ws.length - 1) / 7 = 4 by omega] at h1
  rw [within_cons]
  simp only [Tc.fromModbusParameterData, Tc.parametersFromRawData, if_neg (by omega :
    ¬ ws.length < 1 + 4 * 7), Res.bind_eq, Res.pure_eq, Res.bind_assoc]
  refine TemperatureUnit.parser.step (by omega) fun tu htu => ?_
  have := h1.bind (f := fun cs => (Tc.toArray4 cs).bind fun a => .ok (Tc.Mod.mk tu a))
    (P' := True) (Q' := fun m => Fits ws 0 (registers (.tc m))) fun p _ hp => by
      obtain ⟨v, hv, hl⟩ := Tc.toArray4_ok p hp.1
      rw [hv]
      refine checked_ok _ ⟨htu, ?_⟩
      simp only [hl]
      exact hp.2
  exact this.weaken (by simp) fun _ _ q => q

/-- With 36 or more registers the thermocouple module is either rejected or panics. -/
theorem Tc.too_long (ws : List Word) (h : 36 ≤ ws.length) :
    (Within ws 0 (2 :: (List.replicate ((ws.length - 1) / 7)
      [19, 4, 5, 1, 1, 65535, 65535]).flatten) → Tc.fromModbusParameterData ws = .panic) ∧
    (¬ Within ws 0 (2 :: (List.replicate ((ws.length - 1) / 7)
      [19, 4, 5, 1, 1, 65535, 65535]).flatten) →
      Tc.fromModbusParameterData ws = .err .channelParameter) := by
  have h1 := Tc.checked_channels ws
  have h0 := TemperatureUnit.parser.at ws 0 (by omega)
  simp only [Tc.fromModbusParameterData, Tc.parametersFromRawData, if_neg (by omega :
    ¬ ws.length < 1 + 4 * 7), Res.bind_eq, Res.pure_eq, Res.bind_assoc]
  rw [within_cons, ← Res.bind_assoc]
  constructor
  · rintro ⟨p0, p1⟩
    obtain ⟨tu, htu⟩ := h0.ok p0
    obtain ⟨cs, hcs⟩ := h1.ok p1
    rw [htu, Res.bind_ok, hcs, Res.bind_ok, Tc.toArray4_panic cs (by
      have := (h1.val cs hcs).1; omega)]
    rfl
  · intro hn
    by_cases p0 : ∃ w, ws[0]? = some w ∧ w.toNat ≤ 2
    · obtain ⟨tu, htu⟩ := h0.ok p0
      rw [htu, Res.bind_ok, h1.err fun p1 => hn ⟨p0, p1⟩]
      rfl
    · rw [h0.err p0]; rfl

/-- What a created module looks like. -/
def IsCreated : ModuleType → Module → Prop
  | .UR20_4DI_P, .di m => m.variant = .UR20_4DI_P ∧ m.chParams.length = 4
  | .UR20_8DI_P_2W, .di m => m.variant = .UR20_8DI_P_2W ∧ m.chParams.length = 8
  | .UR20_4DO_P, .dout m => m.variant = .UR20_4DO_P ∧ m.chParams.length = 4
  | .UR20_4DO_P_2A, .dout m => m.variant = .UR20_4DO_P_2A ∧ m.chParams.length = 4
  | .UR20_8DO_P, .dout m => m.variant = .UR20_8DO_P ∧ m.chParams.length = 8
  | .UR20_16DO_P, .do16 => True
  | .UR20_4RO_CO_255, .ro m => m.chParams.length = 4
  | .UR20_4AO_UI_16, .ao m => m.chParams.length = 4
  | .UR20_4AO_UI_16_DIAG, .aoDiag m => m.chParams.length = 4
  | .UR20_4AI_RTD_DIAG, .rtd m => m.chParams.length = 4
  | .UR20_4AI_UI_16_DIAG, .aiDiag m => m.chParams.length = 4
  | .UR20_4AI_UI_12, .ai m => m.variant = .UR20_4AI_UI_12 ∧ m.chParams.length = 4
  | .UR20_4AI_UI_16, .ai m => m.variant = .UR20_4AI_UI_16 ∧ m.chParams.length = 4
  | .UR20_8AI_I_16_DIAG_HD, .aiI m => m.chParams.length = 8
  | .UR20_4AI_TC_DIAG, .tc _ => True
  | .UR20_2FCNT_100, .fcnt m => m.chParams.length = 2
  | .UR20_1COM_232_485_422, .com m => m.chParams.length = 1
  | .UR20_PF_O_1DI_SIL, .sil => True
  | _, _ => False

/-- The largest number of parameter registers a type copes with, if there is one. -/
def lengthOk (t : ModuleType) (n : Nat) : Prop :=
  match t with
  | .UR20_16DO_P | .UR20_PF_O_1DI_SIL => n = 0
  | .UR20_4AI_TC_DIAG => n < 36
  | _ => True

theorem create_checked (t : ModuleType) (ms : List Nat) (ht : maxCodes t = some ms)
    (ws : List Word) (hl : ms.length ≤ ws.length) (hm : lengthOk t ws.length) :
    Checked (Module.create t ws) (Within ws 0 ms)
      (fun m => IsCreated t m ∧ Fits ws 0 (registers m)) := by
  cases t <;> simp only [maxCodes, Option.some.injEq, reduceCtorEq] at ht <;> subst ht
  case UR20_4DI_P =>
    exact (Di.checked .UR20_4DI_P ws hl).map.weaken Iff.rfl
      fun b _ ⟨a, ⟨h1, h2, h3⟩, e⟩ => by subst e; exact ⟨⟨h1, h2⟩, h3⟩
  case UR20_8DI_P_2W =>
    exact (Di.checked .UR20_8DI_P_2W ws hl).map.weaken Iff.rfl
      fun b _ ⟨a, ⟨h1, h2, h3⟩, e⟩ => by subst e; exact ⟨⟨h1, h2⟩, h3⟩
  case UR20_4DO_P =>
    exact (Do.checked .UR20_4DO_P ws hl).map.weaken Iff.rfl
      fun b _ ⟨a, ⟨h1, h2, h3⟩, e⟩ => by subst e; exact ⟨⟨h1, h2⟩, h3⟩
  case UR20_4DO_P_2A =>
    exact (Do.checked .UR20_4DO_P_2A ws hl).map.weaken Iff.rfl
      fun b _ ⟨a, ⟨h1, h2, h3⟩, e⟩ => by subst e; exact ⟨⟨h1, h2⟩, h3⟩
  case UR20_8DO_P =>
    exact (Do.checked .UR20_8DO_P ws hl).map.weaken Iff.rfl
      fun b _ ⟨a, ⟨h1, h2, h3⟩, e⟩ => by subst e; exact ⟨⟨h1, h2⟩, h3⟩
  case UR20_16DO_P =>
    have : ws = [] := List.length_eq_zero_iff.1 hm
    subst this
    exact checked_ok _ ⟨trivial, trivial⟩
  case UR20_4RO_CO_255 =>
    exact (Ro.checked ws hl).map.weaken Iff.rfl
      fun b _ ⟨a, ⟨h2, h3⟩, e⟩ => by subst e; exact ⟨h2, h3⟩
  case UR20_4AI_UI_16 =>
    exact (Ai.checked .UR20_4AI_UI_16 ws hl).map.weaken Iff.rfl
      fun b _ ⟨a, ⟨h1, h2, h3⟩, e⟩ => by subst e; exact ⟨⟨h1, h2⟩, h3⟩
  case UR20_4AI_UI_16_DIAG =>
    exact (AiDiag.checked ws hl).map.weaken Iff.rfl
      fun b _ ⟨a, ⟨h2, h3⟩, e⟩ => by subst e; exact ⟨h2, h3⟩
  case UR20_4AI_UI_12 =>
    exact (Ai.checked .UR20_4AI_UI_12 ws hl).map.weaken Iff.rfl
      fun b _ ⟨a, ⟨h1, h2, h3⟩, e⟩ => by subst e; exact ⟨⟨h1, h2⟩, h3⟩
  case UR20_8AI_I_16_DIAG_HD =>
    exact (AiI.checked ws hl).map.weaken Iff.rfl
      fun b _ ⟨a, ⟨h2, h3⟩, e⟩ => by subst e; exact ⟨h2, h3⟩
  case UR20_4AO_UI_16 =>
    exact (Ao.checked ws hl).map.weaken Iff.rfl
      fun b _ ⟨a, ⟨h2, h3⟩, e⟩ => by subst e; exact ⟨h2, h3⟩
  case UR20_4AO_UI_16_DIAG =>
    exact (AoDiag.checked ws hl).map.weaken Iff.rfl
      fun b _ ⟨a, ⟨h2, h3⟩, e⟩ => by subst e; exact ⟨h2, h3⟩
  case UR20_2FCNT_100 =>
    exact (Fcnt.checked ws hl).map.weaken Iff.rfl
      fun b _ ⟨a, ⟨h2, h3⟩, e⟩ => by subst e; exact ⟨h2, h3⟩
  case UR20_1COM_232_485_422 =>
    exact (Com.checked ws hl).map.weaken Iff.rfl
      fun b _ ⟨a, ⟨h2, h3⟩, e⟩ => by subst e; exact ⟨h2, h3⟩
  case UR20_4AI_RTD_DIAG =>
    exact (Rtd.checked ws hl).map.weaken Iff.rfl
      fun b _ ⟨a, ⟨h2, h3⟩, e⟩ => by subst e; exact ⟨h2, h3⟩
  case UR20_4AI_TC_DIAG =>
    exact (Tc.checked ws hl hm).map.weaken Iff.rfl
      fun b _ ⟨a, h3, e⟩ => by subst e; exact ⟨trivial, h3⟩
  case UR20_PF_O_1DI_SIL =>
    have : ws = [] := List.length_eq_zero_iff.1 hm
    subst this
    exact checked_ok _ ⟨trivial, trivial⟩

theorem Di.short (v : Di.Variant) (ws : List Word)
    (h : ws.length < v.moduleType.channelCount) :
    Di.fromModbusParameterData v ws = .err .bufferLength := by
  simp [Di.fromModbusParameterData, Di.parametersFromRawData, h]

theorem Do.short (v : Do.Variant) (ws : List Word)
    (h : ws.length < v.moduleType.channelCount) :
    Do.fromModbusParameterData v ws = .err .bufferLength := by
  simp [Do.fromModbusParameterData, Do.parametersFromRawData, h]

theorem Ai.short (v : Ai.Variant) (ws : List Word)
    (h : ws.length < 1 + 2 * v.moduleType.channelCount) :
    Ai.fromModbusParameterData v ws = .err .bufferLength := by
  simp [Ai.fromModbusParameterData, Ai.parametersFromRawData, h]

theorem create_short (t : ModuleType) (ms : List Nat) (ht : maxCodes t = some ms)
    (ws : List Word) (hl : ws.length < ms.length) : Module.create t ws = .err .bufferLength := by
  cases t <;> simp only [maxCodes, Option.some.injEq, reduceCtorEq] at ht <;> subst ht <;>
    simp only [List.length_cons, List.length_replicate, List.length_nil, List.length_flatten,
      List.map_replicate, List.sum_replicate_nat] at hl <;>
    first
    | omega
    | simp only [Module.create, Ro.fromModbusParameterData,
        Ro.parametersFromRawData, Ao.fromModbusParameterData, Ao.parametersFromRawData,
        AoDiag.fromModbusParameterData, AoDiag.parametersFromRawData,
        Rtd.fromModbusParameterData, Rtd.parametersFromRawData,
        AiDiag.fromModbusParameterData, AiDiag.parametersFromRawData,
        AiI.fromModbusParameterData, AiI.parametersFromRawData,
        Tc.fromModbusParameterData, Tc.parametersFromRawData,
        Fcnt.fromModbusParameterData, Fcnt.parametersFromRawData,
        Com.fromModbusParameterData, Com.parametersFromRawData, Res.bind_eq]
      simp (disch := omega) only [if_pos, Res.bind_err, Res.map_err]
    | simp only [Module.create]
      rw [Di.short _ _ hl]; rfl
    | simp only [Module.create]
      rw [Do.short _ _ hl]; rfl
    | simp only [Module.create]
      rw [Ai.short _ _ hl]; rfl

theorem create_unsupported (t : ModuleType) (ht : maxCodes t = none) (ws : List Word) :
    Module.create t ws = .panic := by
  cases t <;> first | rfl | simp [maxCodes] at ht

end Ur20

namespace Ur20

open Spec

theorem idx_append_left {α : Type} (l l' : List α) (k : Nat) (h : k < l.length) :
    idx (l ++ l') k = idx l k := by
  simp [idx, List.getElem?_append_left h]

/-- Types that ignore surplus parameter registers. -/
def ignoresSurplus (t : ModuleType) : Prop :=
  t ≠ .UR20_16DO_P ∧ t ≠ .UR20_PF_O_1DI_SIL ∧ t ≠ .UR20_4AI_TC_DIAG

theorem create_append (t : ModuleType) (ms : List Nat) (ht : maxCodes t = some ms)
    (hs : ignoresSurplus t) (ws extra : List Word) (hl : ms.length ≤ ws.length) :
    Module.create t (ws ++ extra) = Module.create t ws := by
  have hdi : ∀ v : Di.Variant, v.moduleType.channelCount ≤ ws.length →
      Di.fromModbusParameterData v (ws ++ extra) = Di.fromModbusParameterData v ws := by
    intro v hv
    simp only [Di.fromModbusParameterData, Di.parametersFromRawData, List.length_append]
    rw [if_neg (by omega), if_neg (by omega)]
    congr 1
    refine mapRes_congr fun i hi => ?_
    rw [idx_append_left _ _ _ (by rw [List.mem_range] at hi; omega)]
  have hdo : ∀ v : Do.Variant, v.moduleType.channelCount ≤ ws.length →
      Do.fromModbusParameterData v (ws ++ extra) = Do.fromModbusParameterData v ws := by
    intro v hv
    simp only [Do.fromModbusParameterData, Do.parametersFromRawData, List.length_append]
    rw [if_neg (by omega), if_neg (by omega)]
    congr 1
    refine mapRes_congr fun i hi => ?_
    rw [idx_append_left _ _ _ (by rw [List.mem_range] at hi; omega)]
  have hai : ∀ v : Ai.Variant, 9 ≤ ws.length →
      Ai.fromModbusParameterData v (ws ++ extra) = Ai.fromModbusParameterData v ws := by
    intro v hv
    have : v.moduleType.channelCount = 4 := by cases v <;> rfl
    simp only [Ai.fromModbusParameterData, Ai.parametersFromRawData, List.length_append, this]
    rw [if_neg (by omega), if_neg (by omega), idx_append_left _ _ _ (by omega)]
    rw [mapRes_congr (g := Ai.channelFromRawData ws) fun i hi => by
      rw [List.mem_range] at hi
      simp (disch := omega) only [Ai.channelFromRawData, idx_append_left]]
  cases t <;> simp only [maxCodes, Option.some.injEq, reduceCtorEq] at ht <;> subst ht <;>
    simp only [List.length_cons, List.length_replicate, List.length_nil, List.length_flatten,
      List.map_replicate, List.sum_replicate_nat] at hl
  case UR20_4DI_P => simp only [Module.create]; rw [hdi _ (by simpa [Di.Variant.moduleType, Do.Variant.moduleType, ModuleType.channelCount] using hl)]
  case UR20_8DI_P_2W => simp only [Module.create]; rw [hdi _ (by simpa [Di.Variant.moduleType, Do.Variant.moduleType, ModuleType.channelCount] using hl)]
  case UR20_4DO_P => simp only [Module.create]; rw [hdo _ (by simpa [Di.Variant.moduleType, Do.Variant.moduleType, ModuleType.channelCount] using hl)]
  case UR20_4DO_P_2A => simp only [Module.create]; rw [hdo _ (by simpa [Di.Variant.moduleType, Do.Variant.moduleType, ModuleType.channelCount] using hl)]
  case UR20_8DO_P => simp only [Module.create]; rw [hdo _ (by simpa [Di.Variant.moduleType, Do.Variant.moduleType, ModuleType.channelCount] using hl)]
  case UR20_16DO_P => exact absurd rfl hs.1
  case UR20_PF_O_1DI_SIL => exact absurd rfl hs.2.1
  case UR20_4AI_TC_DIAG => exact absurd rfl hs.2.2
  case UR20_4AI_UI_12 => simp only [Module.create]; rw [hai _ hl]
  case UR20_4AI_UI_16 => simp only [Module.create]; rw [hai _ hl]
  case UR20_4RO_CO_255 =>
    simp only [Module.create, Ro.fromModbusParameterData, Ro.parametersFromRawData,
      List.length_append]
    rw [if_neg (by omega), if_neg (by omega)]
    congr 2
    refine mapRes_congr fun i hi => ?_
    rw [idx_append_left _ _ _ (by rw [List.mem_range] at hi; omega)]
  case UR20_2FCNT_100 =>
    simp only [Module.create, Fcnt.fromModbusParameterData, Fcnt.parametersFromRawData,
      List.length_append]
    rw [if_neg (by omega), if_neg (by omega)]
    congr 2
    refine mapRes_congr fun i hi => ?_
    rw [idx_append_left _ _ _ (by rw [List.mem_range] at hi; omega)]
  case UR20_1COM_232_485_422 =>
    simp only [Module.create, Com.fromModbusParameterData, Com.parametersFromRawData,
      List.length_append]
    rw [if_neg (by omega), if_neg (by omega)]
    simp (disch := omega) only [idx_append_left]
  case UR20_4AO_UI_16 =>
    simp only [Module.create, Ao.fromModbusParameterData, Ao.parametersFromRawData,
      List.length_append]
    rw [if_neg (by omega), if_neg (by omega)]
    rw [mapRes_congr (g := Ao.channelFromRawData ws) fun i hi => by
      rw [List.mem_range] at hi
      simp (disch := omega) only [Ao.channelFromRawData, idx_append_left]]
  case UR20_4AO_UI_16_DIAG =>
    simp only [Module.create, AoDiag.fromModbusParameterData, AoDiag.parametersFromRawData,
      List.length_append]
    rw [if_neg (by omega), if_neg (by omega)]
    rw [mapRes_congr (g := AoDiag.channelFromRawData ws) fun i hi => by
      rw [List.mem_range] at hi
      simp (disch := omega) only [AoDiag.channelFromRawData, idx_append_left]]
  case UR20_4AI_RTD_DIAG =>
    simp only [Module.create, Rtd.fromModbusParameterData, Rtd.parametersFromRawData,
      List.length_append]
    rw [if_neg (by omega), if_neg (by omega), idx_append_left _ _ _ (by omega)]
    rw [mapRes_congr (g := Rtd.channelFromRawData ws) fun i hi => by
      rw [List.mem_range] at hi
      simp (disch := omega) only [Rtd.channelFromRawData, idx_append_left]]
  case UR20_4AI_UI_16_DIAG =>
    simp only [Module.create, AiDiag.fromModbusParameterData, AiDiag.parametersFromRawData,
      List.length_append]
    rw [if_neg (by omega), if_neg (by omega), idx_append_left _ _ _ (by omega)]
    rw [mapRes_congr (g := AiDiag.channelFromRawData ws) fun i hi => by
      rw [List.mem_range] at hi
      simp (disch := omega) only [AiDiag.channelFromRawData, idx_append_left]]
  case UR20_8AI_I_16_DIAG_HD =>
    simp only [Module.create, AiI.fromModbusParameterData, AiI.parametersFromRawData,
      List.length_append]
    rw [if_neg (by omega), if_neg (by omega), idx_append_left _ _ _ (by omega)]
    rw [mapRes_congr (g := AiI.channelFromRawData ws) fun i hi => by
      rw [List.mem_range] at hi
      simp (disch := omega) only [AiI.channelFromRawData, idx_append_left]]

theorem create_append_tc (ws extra : List Word) (hl : ws.length = 29) (he : extra.length < 7) :
    Module.create .UR20_4AI_TC_DIAG (ws ++ extra) = Module.create .UR20_4AI_TC_DIAG ws := by
  simp only [Module.create, Tc.fromModbusParameterData, Tc.parametersFromRawData,
    List.length_append, Tc.chunksExact7_eq, List.length_drop]
  rw [if_neg (by omega), if_neg (by omega), idx_append_left _ _ _ (by omega),
    show (ws.length + extra.length - 1) / 7 = 4 by omega, show (ws.length - 1) / 7 = 4 by omega]
  have : ∀ i, i ∈ List.range 4 → (List.drop (7 * i) (List.drop 1 (ws ++ extra))).take 7 =
      (List.drop (7 * i) (List.drop 1 ws)).take 7 := by
    intro i hi
    rw [List.mem_range] at hi
    rw [List.drop_append_of_le_length (by omega), List.drop_append_of_le_length (by simp; omega),
      List.take_append_of_le_length (by simp; omega)]
  rw [List.map_congr_left this]

end Ur20
