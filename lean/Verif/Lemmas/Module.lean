import Verif.Lemmas.Create
import Verif.Lemmas.Digital
import Verif.Lemmas.Serial

/-! Facts about every module: numbers of values and words, absence of panics. -/

namespace Ur20

open Spec

/-- A module that construction can produce. -/
def Module.Good (m : Module) : Prop := ∃ t, IsCreated t m

theorem create_spec {t : ModuleType} {ws : List Word} {m : Module} (h : Module.create t ws = .ok m) :
    IsCreated t m ∧ Fits ws 0 (registers m) := by
  cases hmc : maxCodes t with
  | none => rw [create_unsupported t hmc] at h; cases h
  | some ms =>
    have hl : ms.length ≤ ws.length := by
      apply Nat.le_of_not_lt
      intro hl
      rw [create_short t ms hmc ws hl] at h
      cases h
    have hm : lengthOk t ws.length := by
      cases t <;> simp only [lengthOk]
      case UR20_16DO_P =>
        cases ws with
        | nil => rfl
        | cons w ws => cases h
      case UR20_PF_O_1DI_SIL =>
        cases ws with
        | nil => rfl
        | cons w ws => cases h
      case UR20_4AI_TC_DIAG =>
        apply Nat.lt_of_not_le
        intro h36
        have hl := Tc.too_long ws h36
        simp only [Module.create] at h
        by_cases hw : Within ws 0 (2 :: (List.replicate ((ws.length - 1) / 7)
          [19, 4, 5, 1, 1, 65535, 65535]).flatten)
        · rw [hl.1 hw] at h; cases h
        · rw [hl.2 hw] at h; cases h
    exact (create_checked t ms hmc ws hl hm).val m h

theorem create_good {t : ModuleType} {ws : List Word} {m : Module} (h : Module.create t ws = .ok m) :
    IsCreated t m := (create_spec h).1

theorem mapRes_ne_panic {α β : Type} {f : α → Res β} {l : List α}
    (h : ∀ a ∈ l, f a ≠ .panic) : mapRes f l ≠ .panic := by
  intro hp
  obtain ⟨a, ha, hf⟩ := mapRes_panic_mem hp
  exact h a ha hf

theorem defaultProcessData_length {t : ModuleType} {ws : List Word} {vs : List ChannelValue}
    (h : defaultProcessData t ws = .ok vs) : vs.length = t.channelCount ∧ ws = [] := by
  unfold defaultProcessData at h
  split at h
  · cases h
  · rename_i hw
    cases h
    simp only [Bool.not_eq_true', Bool.not_eq_false] at hw
    simpa using hw

theorem defaultProcessData_ne_panic {t : ModuleType} {ws : List Word} :
    defaultProcessData t ws ≠ .panic := by
  unfold defaultProcessData; split <;> simp

theorem Fcnt.inputChannel_ne_panic {ws : List Word} (h : ws.length = 10) {i : Nat} (hi : i < 2) :
    Fcnt.inputChannel ws i ≠ .panic := by
  unfold Fcnt.inputChannel
  simp only [Res.bind_eq, Res.pure_eq]
  rw [idx_of_lt (by omega), idx_of_lt (by omega), idx_of_lt (by omega), idx_of_lt (by omega),
    idx_of_lt (by omega)]
  simp

theorem Fcnt.outputChannel_ne_panic {ws : List Word} (h : ws.length = 6) {i : Nat} (hi : i < 2) :
    Fcnt.outputChannel ws i ≠ .panic := by
  unfold Fcnt.outputChannel
  simp only [Res.bind_eq, Res.pure_eq]
  rw [idx_of_lt (by omega), idx_of_lt (by omega), idx_of_lt (by omega)]
  simp

theorem Module.processInputData_length (m : Module) (ws : List Word) (vs : List ChannelValue)
    (h : m.processInputData ws = .ok vs) :
    vs.length = if m = .sil then 1 else m.moduleType.channelCount := by
  cases m <;> simp only [reduceCtorEq, if_false, if_true] <;>
    simp only [Module.processInputData] at h
  case di m =>
    unfold Di.Mod.processInputData at h
    split at h
    · cases h
    · simp only [Res.bind_eq, Res.pure_eq, Res.bind_eq_ok] at h
      obtain ⟨w, -, h⟩ := h
      cases h
      exact bitValues_length _ _
  case dout m => exact (defaultProcessData_length h).1
  case do16 => exact (defaultProcessData_length h).1
  case ro m => exact (defaultProcessData_length h).1
  case ao m => exact (defaultProcessData_length h).1
  case aoDiag m => exact (defaultProcessData_length h).1
  case rtd m =>
    unfold Rtd.Mod.processInputData at h
    split at h
    · cases h
    · split at h
      · cases h
      · rw [mapRes_length h]; rfl
  case aiDiag m =>
    unfold AiDiag.Mod.processInputData at h
    split at h
    · cases h
    · split at h
      · cases h
      · rw [mapRes_length h]; rfl
  case ai m =>
    unfold Ai.Mod.processInputData at h
    split at h
    · cases h
    · split at h
      · cases h
      · rw [mapRes_length h, List.length_range]
        cases m.variant <;> rfl
  case aiI m =>
    unfold AiI.Mod.processInputData at h
    split at h
    · cases h
    · split at h
      · cases h
      · rw [mapRes_length h]; rfl
  case tc m =>
    unfold Tc.Mod.processInputData at h
    split at h
    · cases h
    · rename_i hl
      cases h
      simp only [ne_eq, Decidable.not_not] at hl
      simp [hl]
      rfl
  case fcnt m =>
    unfold Fcnt.Mod.processInputData at h
    split at h
    · cases h
    · split at h
      · cases h
      · rw [mapRes_length h]; rfl
  case com m =>
    simp only [Com.Mod.processInputData, Res.bind_eq, Res.pure_eq, Res.bind_eq_ok] at h
    obtain ⟨v, -, h⟩ := h
    cases h
    rfl
  case sil =>
    unfold Sil.processInputData at h
    split at h
    · cases h
    · simp only [Res.bind_eq, Res.pure_eq, Res.bind_eq_ok] at h
      obtain ⟨_, -, _, -, h⟩ := h
      cases h
      rfl

theorem Module.processOutputData_length (m : Module) (ws : List Word) (vs : List ChannelValue)
    (h : m.processOutputData ws = .ok vs) : vs.length = m.moduleType.channelCount := by
  cases m <;> simp only [Module.processOutputData] at h
  case di m => exact (defaultProcessData_length h).1
  case rtd m => exact (defaultProcessData_length h).1
  case ai m => exact (defaultProcessData_length h).1
  case aiI m => exact (defaultProcessData_length h).1
  case tc m => exact (defaultProcessData_length h).1
  case sil => exact (defaultProcessData_length h).1
  case dout m =>
    unfold Do.Mod.processOutputData at h
    split at h
    · cases h
    · simp only [Res.bind_eq, Res.pure_eq, Res.bind_eq_ok] at h
      obtain ⟨w, -, h⟩ := h
      cases h
      exact bitValues_length _ _
  case do16 =>
    unfold Do16.processOutputData at h
    split at h
    · cases h
    · simp only [Res.bind_eq, Res.pure_eq, Res.bind_eq_ok] at h
      obtain ⟨w, -, h⟩ := h
      cases h
      exact bitValues_length _ _
  case ro m =>
    unfold Ro.processOutputData at h
    split at h
    · cases h
    · simp only [Res.bind_eq, Res.pure_eq, Res.bind_eq_ok] at h
      obtain ⟨w, -, h⟩ := h
      cases h
      exact bitValues_length _ _
  case ao m =>
    unfold Ao.Mod.processOutputData at h
    split at h
    · cases h
    · rename_i hl
      rw [mapRes_length h, List.length_zipIdx]
      simpa [Module.moduleType, ModuleType.channelCount] using hl
  case aoDiag m =>
    unfold AoDiag.Mod.processOutputData at h
    split at h
    · cases h
    · rename_i hl
      rw [mapRes_length h, List.length_zipIdx]
      simpa [Module.moduleType, ModuleType.channelCount] using hl
  case aiDiag m =>
    unfold AiDiag.Mod.processOutputData at h
    split at h
    · cases h
    · cases h; rfl
  case fcnt m =>
    unfold Fcnt.Mod.processOutputData at h
    split at h
    · cases h
    · rw [mapRes_length h]; rfl
  case com m =>
    simp only [Com.Mod.processOutputData, Res.bind_eq, Res.pure_eq, Res.bind_eq_ok] at h
    obtain ⟨v, -, h⟩ := h
    cases h
    rfl

theorem Com.rsInFromBytes_ne_panic (bs : List Byte) : Com.rsInFromBytes bs ≠ .panic := by
  match bs with
  | [] => simp [Com.rsInFromBytes_short]
  | [_] => simp [Com.rsInFromBytes_short]
  | s :: l :: rest => rw [Com.rsInFromBytes_cons]; split <;> simp

theorem Com.rsOutFromBytes_ne_panic (bs : List Byte) : Com.rsOutFromBytes bs ≠ .panic := by
  match bs with
  | [] => simp [Com.rsOutFromBytes_short]
  | [_] => simp [Com.rsOutFromBytes_short]
  | s :: l :: rest => rw [Com.rsOutFromBytes_cons]; split <;> simp

theorem Module.processInputData_ne_panic (m : Module) (ws : List Word) :
    m.processInputData ws ≠ .panic := by
  cases m <;> simp only [Module.processInputData]
  case di m =>
    unfold Di.Mod.processInputData
    split
    · simp
    · rw [idx_of_lt (by omega)]; simp
  case rtd m =>
    unfold Rtd.Mod.processInputData
    split
    · simp
    · split
      · simp
      · refine mapRes_ne_panic fun i hi => ?_
        rw [List.mem_range] at hi
        rw [idx_of_lt (by omega), idx_of_lt (by omega)]
        simp
  case aiDiag m =>
    unfold AiDiag.Mod.processInputData
    split
    · simp
    · split
      · simp
      · refine mapRes_ne_panic fun i hi => ?_
        rw [List.mem_range] at hi
        rw [idx_of_lt (by omega), idx_of_lt (by omega)]
        simp
  case ai m =>
    unfold Ai.Mod.processInputData
    split
    · simp
    · split
      · simp
      · refine mapRes_ne_panic fun i hi => ?_
        rw [List.mem_range] at hi
        rw [idx_of_lt (by omega), idx_of_lt (by omega)]
        simp
  case aiI m =>
    unfold AiI.Mod.processInputData
    split
    · simp
    · split
      · simp
      · refine mapRes_ne_panic fun i hi => ?_
        rw [List.mem_range] at hi
        rw [idx_of_lt (by omega), idx_of_lt (by omega)]
        simp
  case tc m =>
    unfold Tc.Mod.processInputData
    split <;> simp
  case fcnt m =>
    unfold Fcnt.Mod.processInputData
    split
    · simp
    · split
      · simp
      · refine mapRes_ne_panic fun i hi => Fcnt.inputChannel_ne_panic (by omega)
          (List.mem_range.1 hi)
  case com m =>
    simp only [Com.Mod.processInputData, Res.bind_eq, Res.pure_eq, ne_eq, Res.bind_eq_panic]
    rintro (h | ⟨a, -, h⟩)
    · exact Com.rsInFromBytes_ne_panic _ h
    · cases h
  case sil =>
    unfold Sil.processInputData
    split
    · simp
    · rw [idx_of_lt (by omega), idx_of_lt (by omega)]; simp
  all_goals exact defaultProcessData_ne_panic

theorem Module.processOutputData_ne_panic (m : Module) (hm : m.Good) (ws : List Word) :
    m.processOutputData ws ≠ .panic := by
  obtain ⟨t, ht⟩ := hm
  cases m <;> simp only [Module.processOutputData]
  case dout m =>
    unfold Do.Mod.processOutputData
    split
    · simp
    · rw [idx_of_lt (by omega)]; simp
  case do16 =>
    unfold Do16.processOutputData
    split
    · simp
    · rw [idx_of_lt (by omega)]; simp
  case ro m =>
    unfold Ro.processOutputData
    split
    · simp
    · rw [idx_of_lt (by omega)]; simp
  case ao m =>
    have : m.chParams.length = 4 := by cases t <;> simp only [IsCreated] at ht; exact ht
    unfold Ao.Mod.processOutputData
    split
    · simp
    · refine mapRes_ne_panic fun i hi => ?_
      have := List.snd_lt_of_mem_zipIdx hi
      rw [idx_of_lt (by omega)]
      simp
  case aoDiag m =>
    have : m.chParams.length = 4 := by cases t <;> simp only [IsCreated] at ht; exact ht
    unfold AoDiag.Mod.processOutputData
    split
    · simp
    · refine mapRes_ne_panic fun i hi => ?_
      have := List.snd_lt_of_mem_zipIdx hi
      rw [idx_of_lt (by omega)]
      simp
  case aiDiag m =>
    unfold AiDiag.Mod.processOutputData
    split <;> simp
  case fcnt m =>
    unfold Fcnt.Mod.processOutputData
    split
    · simp
    · refine mapRes_ne_panic fun i hi => Fcnt.outputChannel_ne_panic (by omega)
        (List.mem_range.1 hi)
  case com m =>
    simp only [Com.Mod.processOutputData, Res.bind_eq, Res.pure_eq, ne_eq, Res.bind_eq_panic]
    rintro (h | ⟨a, -, h⟩)
    · exact Com.rsOutFromBytes_ne_panic _ h
    · cases h
  all_goals exact defaultProcessData_ne_panic

/-- A module without process output has no valid output data. -/
theorem Module.processOutputData_none (m : Module) (ho : m.outputByteCount = 0)
    (ws : List Word) (hw : ws ≠ []) : m.processOutputData ws = .err .bufferLength := by
  have hd : ∀ t, defaultProcessData t ws = .err .bufferLength := by
    intro t
    unfold defaultProcessData
    rw [if_pos (by simpa using hw)]
  cases m <;> simp only [Module.processOutputData] <;> simp only [Module.outputByteCount] at ho <;>
    first
    | exact hd _
    | omega
    | skip
  case dout m =>
    unfold Do.Mod.outputByteCount at ho
    cases hv : m.variant <;> rw [hv] at ho <;> cases ho
  case aiDiag m =>
    unfold AiDiag.Mod.processOutputData
    rw [if_pos (by simpa using hw)]
  case com m => cases hv : m.processDataLen <;> rw [hv] at ho <;> cases ho

/-- The same on the input side. -/
theorem Module.processInputData_none (m : Module) (ho : m.inputByteCount = 0)
    (ws : List Word) (hw : ws ≠ []) : m.processInputData ws = .err .bufferLength := by
  have hd : ∀ t, defaultProcessData t ws = .err .bufferLength := by
    intro t
    unfold defaultProcessData
    rw [if_pos (by simpa using hw)]
  cases m <;> simp only [Module.processInputData] <;> simp only [Module.inputByteCount] at ho <;>
    first
    | exact hd _
    | omega
    | skip
  case di m =>
    unfold Di.Mod.inputByteCount at ho
    cases hv : m.variant <;> rw [hv] at ho <;> cases ho
  case ai m =>
    unfold Ai.Mod.inputByteCount at ho
    cases hv : m.variant <;> rw [hv] at ho <;> cases ho
  case com m => cases hv : m.processDataLen <;> rw [hv] at ho <;> cases ho

theorem Fcnt.setIdx_length {l l' : List Word} {i : Nat} {w : Word} (h : Fcnt.setIdx l i w = .ok l') :
    l'.length = l.length := by
  unfold Fcnt.setIdx at h
  split at h
  · cases h; simp
  · cases h

theorem Fcnt.setIdx_ne_panic {l : List Word} {i : Nat} {w : Word} (h : i < l.length) :
    Fcnt.setIdx l i w = .ok (l.set i w) := by
  simp [Fcnt.setIdx, h]

theorem Fcnt.encodeChannel_length {i : Nat} {v : ChannelValue} {out out' : List Word}
    (h : Fcnt.encodeChannel i v out = .ok out') : out'.length = out.length := by
  unfold Fcnt.encodeChannel at h
  split at h
  · split at h
    · cases h
    · simp only [Res.bind_eq, Res.pure_eq, Res.bind_eq_ok] at h
      obtain ⟨o1, h1, o2, h2, h⟩ := h
      have e1 := Fcnt.setIdx_length h1
      have e2 := Fcnt.setIdx_length h2
      split at h
      · have := Fcnt.setIdx_length h; omega
      · have := Fcnt.setIdx_length h; omega
      · cases h; omega
  · cases h; rfl
  · cases h

theorem Fcnt.encodeChannel_ne_panic {i : Nat} {v : ChannelValue} {out : List Word} (hi : i < 2)
    (ho : out.length = 6) : Fcnt.encodeChannel i v out ≠ .panic := by
  unfold Fcnt.encodeChannel
  split
  · split
    · simp
    · simp only [Res.bind_eq, Res.pure_eq]
      rw [Fcnt.setIdx_ne_panic (by omega), Res.bind_ok, Fcnt.setIdx_ne_panic (by simp; omega),
        Res.bind_ok]
      split
      · rw [Fcnt.setIdx_ne_panic (by simp; omega)]; simp
      · rw [Fcnt.setIdx_ne_panic (by simp; omega)]; simp
      · simp
  · simp
  · simp

theorem Fcnt.encodeLoop_length {i : Nat} {vs : List ChannelValue} {out out' : List Word}
    (h : Fcnt.encodeLoop i out vs = .ok out') : out'.length = out.length := by
  induction vs generalizing i out with
  | nil => cases h; rfl
  | cons v vs ih =>
    simp only [Fcnt.encodeLoop, Res.bind_eq_ok] at h
    obtain ⟨o1, h1, h2⟩ := h
    rw [ih h2, Fcnt.encodeChannel_length h1]

theorem Fcnt.encodeLoop_ne_panic {i : Nat} {vs : List ChannelValue} {out : List Word}
    (hi : i + vs.length ≤ 2) (ho : out.length = 6) : Fcnt.encodeLoop i out vs ≠ .panic := by
  induction vs generalizing i out with
  | nil => simp [Fcnt.encodeLoop]
  | cons v vs ih =>
    simp only [List.length_cons] at hi
    simp only [Fcnt.encodeLoop, ne_eq, Res.bind_eq_panic]
    rintro (h | ⟨o, h1, h2⟩)
    · exact Fcnt.encodeChannel_ne_panic (by omega) ho h
    · exact ih (by omega) (by rw [Fcnt.encodeChannel_length h1]; exact ho) h2

theorem encodeBits_ne_panic (i : Nat) (res : Word) (vs : List ChannelValue) :
    encodeBits i res vs ≠ .panic := by
  by_cases h : ∀ v ∈ vs, IsBitOrDisabled v
  · obtain ⟨w, hw, -⟩ := encodeBits_ok i res vs h
    simp [hw]
  · simp [encodeBits_err i res vs h]

theorem Com.writeData_ne_panic (i : Nat) (msg ds : List Byte) (h : 2 + i + ds.length ≤ msg.length) :
    Com.writeData i msg ds ≠ .panic := by
  rw [Com.writeData_ok i msg ds h]; simp

theorem Com.rsOutToBytes_ne_panic (o : RsOut) (len : ProcessDataLength) :
    Com.rsOutToBytes o len ≠ .panic := by
  unfold Com.rsOutToBytes
  split
  · simp
  · split
    · simp
    · refine Com.writeData_ne_panic _ _ _ ?_
      have := Com.byteCount_eq len
      simp
      omega

theorem valueToU16_ne_panic (v : ChannelValue) (r : AnalogUIRange) (f : DataFormat) :
    valueToU16 v r f ≠ .panic := by
  unfold valueToU16; split <;> simp

theorem Module.processOutputValues_ne_panic (m : Module) (vs : List ChannelValue) :
    m.processOutputValues vs ≠ .panic := by
  have hdef : ∀ t, defaultProcessOutputValues t vs ≠ .panic := by
    intro t
    unfold defaultProcessOutputValues
    split <;> simp
  have henc : ∀ vs, ((encodeBits 0 0#16 vs).bind fun r => (.ok [r] : Res (List Word))) ≠ .panic := by
    intro vs
    simp only [ne_eq, Res.bind_eq_panic]
    rintro (h | ⟨a, -, h⟩)
    · exact encodeBits_ne_panic _ _ _ h
    · cases h
  cases m <;> simp only [Module.processOutputValues] <;> try exact hdef _
  case dout m =>
    unfold Do.Mod.processOutputValues
    split
    · simp
    · exact henc _
  case do16 =>
    unfold Do16.processOutputValues
    split
    · simp
    · exact henc _
  case ro m =>
    unfold Ro.processOutputValues
    split
    · simp
    · exact henc _
  case ao m =>
    unfold Ao.Mod.processOutputValues
    split
    · simp
    · split
      · simp
      · refine mapRes_ne_panic fun p hp => ?_
        have := List.snd_lt_of_mem_zipIdx hp
        rw [idx_of_lt (by omega)]
        exact valueToU16_ne_panic _ _ _
  case aoDiag m =>
    unfold AoDiag.Mod.processOutputValues
    split
    · simp
    · split
      · simp
      · refine mapRes_ne_panic fun p hp => ?_
        have := List.snd_lt_of_mem_zipIdx hp
        rw [idx_of_lt (by omega)]
        exact valueToU16_ne_panic _ _ _
  case fcnt m =>
    unfold Fcnt.Mod.processOutputValues
    split
    · simp
    · rename_i hl
      split
      · simp
      · refine Fcnt.encodeLoop_ne_panic ?_ (by simp)
        simp only [ne_eq, Decidable.not_not] at hl
        rw [hl]
        decide
  case com m =>
    unfold Com.Mod.processOutputValues
    split
    · split
      · simp
      · simp only [Res.bind_eq, Res.pure_eq, ne_eq, Res.bind_eq_panic]
        rintro (h | ⟨a, -, h⟩)
        · exact Com.rsOutToBytes_ne_panic _ _ h
        · cases h
    · simp

/-- Encoding yields one word per two bytes of process output. -/
theorem Module.processOutputValues_length (m : Module) (vs : List ChannelValue) (ws : List Word)
    (h : m.processOutputValues vs = .ok ws) : ws.length = (m.outputByteCount + 1) / 2 := by
  have hdef : ∀ t, defaultProcessOutputValues t vs = .ok ws → ws.length = 0 := by
    intro t h
    unfold defaultProcessOutputValues at h
    split at h <;> cases h
    rfl
  have henc : ∀ vs, ((encodeBits 0 0#16 vs).bind fun r => (.ok [r] : Res (List Word))) = .ok ws →
      ws.length = 1 := by
    intro vs h
    rw [Res.bind_eq_ok] at h
    obtain ⟨a, -, h⟩ := h
    cases h
    rfl
  cases m <;> simp only [Module.processOutputValues] at h <;>
    try (rw [hdef _ h]; simp [Module.outputByteCount, Di.Mod.outputByteCount])
  case dout m =>
    unfold Do.Mod.processOutputValues at h
    split at h
    · cases h
    · rw [henc _ h]
      simp only [Module.outputByteCount, Do.Mod.outputByteCount]
      cases m.variant <;> rfl
  case do16 =>
    unfold Do16.processOutputValues at h
    split at h
    · cases h
    · exact henc _ h
  case ro m =>
    unfold Ro.processOutputValues at h
    split at h
    · cases h
    · rw [henc _ h]; simp [Module.outputByteCount]
  case ao m =>
    unfold Ao.Mod.processOutputValues at h
    split at h
    · cases h
    · rename_i hl
      split at h
      · cases h
      · rw [mapRes_length h, List.length_zipIdx]
        simpa [Module.outputByteCount] using hl
  case aoDiag m =>
    unfold AoDiag.Mod.processOutputValues at h
    split at h
    · cases h
    · rename_i hl
      split at h
      · cases h
      · rw [mapRes_length h, List.length_zipIdx]
        simpa [Module.outputByteCount] using hl
  case fcnt m =>
    unfold Fcnt.Mod.processOutputValues at h
    split at h
    · cases h
    · split at h
      · cases h
      · rw [Fcnt.encodeLoop_length h]; simp [Module.outputByteCount]
  case com m =>
    unfold Com.Mod.processOutputValues at h
    split at h
    · rename_i o
      split at h
      · cases h
      · rename_i hl
        simp only [Res.bind_eq, Res.pure_eq, Res.bind_eq_ok] at h
        obtain ⟨msg, hm, h⟩ := h
        cases h
        have hmsg : msg.length = m.processDataLen.byteCount := by
          unfold Com.rsOutToBytes at hm
          split at hm
          · cases hm
          · have hb := Com.byteCount_eq m.processDataLen
            rw [Com.writeData_ok _ _ _ (by simp; omega)] at hm
            cases hm
            simp
            omega
        rw [u8ToU16_length, hmsg]
        rfl
    · cases h

/-- The second byte of the only word of a one-byte module is zero. -/
theorem Module.processOutputValues_high (m : Module) (vs : List ChannelValue) (ws : List Word)
    (h : m.processOutputValues vs = .ok ws) (h1 : m.outputByteCount % 2 = 1) :
    ∃ w : Word, ws = [w] ∧ w.toNat < 256 := by
  have henc : ∀ n vs, n ≤ 8 → vs.length = n →
      ((encodeBits 0 0#16 vs).bind fun r => (.ok [r] : Res (List Word))) = .ok ws →
      ∃ w : Word, ws = [w] ∧ w.toNat < 256 := by
    intro n vs hn hv h
    rw [Res.bind_eq_ok] at h
    obtain ⟨a, ha, h⟩ := h
    cases h
    refine ⟨a, rfl, ?_⟩
    by_cases hb : ∀ v ∈ vs, IsBitOrDisabled v
    · obtain ⟨w, hw, hbits⟩ := encodeBits_ok 0 0#16 vs hb
      rw [hw] at ha
      cases ha
      refine Nat.lt_pow_two_of_testBit (n := 8) _ fun i hi => ?_
      by_cases h16 : i < 16
      · have := hbits i h16
        rw [List.getElem?_eq_none (by omega)] at this
        simpa [BitVec.getLsbD] using this
      · exact Nat.testBit_lt_two_pow (Nat.lt_of_lt_of_le (BitVec.isLt _)
          (Nat.pow_le_pow_right (by omega) (by omega)))
    · rw [encodeBits_err _ _ _ hb] at ha; cases ha
  cases m <;> simp only [Module.outputByteCount, Di.Mod.outputByteCount] at h1 <;>
    simp only [Module.processOutputValues] at h <;> try omega
  case dout m =>
    unfold Do.Mod.processOutputValues at h
    split at h
    · cases h
    · rename_i hl
      refine henc _ _ ?_ (Decidable.not_not.1 hl) h
      cases m.variant <;> decide
  case ro m =>
    unfold Ro.processOutputValues at h
    split at h
    · cases h
    · rename_i hl
      exact henc _ _ (by omega) (Decidable.not_not.1 hl) h
  case com m => cases hv : m.processDataLen <;> rw [hv] at h1 <;> cases h1

end Ur20
