import Verif.Spec.Cycle
import Verif.Lemmas.AnalogModules
import Verif.Props.Writes
import Verif.Props.Thermal
import Verif.Props.Counter
import Verif.Props.AnalogCoupler
import Verif.Lemmas.SerialCoupler

/-! Decoding and encoding of whole modules, and the configuration of a reachable coupler. -/

namespace Ur20

open Spec Com Coupler

theorem com_len {ws : List Word} {cm : Com.Mod} (h : Com.fromModbusParameterData ws = .ok cm) :
    cm.processDataLen.byteCount = if ws[0]? = some 0#16 then 8 else 16 := by
  unfold Com.fromModbusParameterData at h
  simp only [Res.bind_eq, Res.bind_eq_ok, Res.pure_eq, Res.ok.injEq] at h
  obtain ⟨p, h1, rfl⟩ := h
  unfold Com.parametersFromRawData at h1
  split at h1
  · cases h1
  · simp only [Res.bind_eq] at h1
    rw [Res.bind_eq_ok] at h1
    obtain ⟨w, hw, h1⟩ := h1
    rw [Res.bind_eq_ok] at h1
    obtain ⟨len, hlen, h1⟩ := h1
    have hp : p.1 = len := by
      simp only [Res.bind_eq_ok, Res.pure_eq, Res.ok.injEq] at h1
      obtain ⟨_, _, _, _, _, _, _, _, _, _, _, _, _, _, _, _, _, _, _, _, _, _, _, _, _, _, _, _, _,
        _, _, _, _, _, _, _, rfl⟩ := h1
      rfl
    rw [idx_eq_ok] at hw
    rw [hw, hp]
    simp only [codeParam, Res.ofOption, ProcessDataLength.fromU16] at hlen
    have hlt := w.isLt
    split at hlen
    · rename_i a ha
      cases hlen
      split at ha
      · rename_i h0
        cases ha
        rw [if_pos (by congr 1; exact BitVec.eq_of_toNat_eq h0)]
        rfl
      · rename_i h0
        cases ha
        rw [if_neg (by simp only [Option.some.injEq]; rintro rfl; simp at h0)]
        rfl
      · cases ha
    · cases hlen

theorem create_bytes {t : ModuleType} {par : List Word} {m : Module}
    (h : Module.create t par = .ok m) :
    m.inputByteCount = inputBytes t par ∧ m.outputByteCount = outputBytes t par := by
  have hg := create_good h
  by_cases hcom : t = .UR20_1COM_232_485_422
  · subst hcom
    simp only [Module.create, Res.map_eq_ok] at h
    obtain ⟨cm, h1, rfl⟩ := h
    exact ⟨com_len h1, com_len h1⟩
  · cases t <;> cases m <;> simp only [IsCreated] at hg <;>
      first
        | exact absurd rfl hcom
        | (obtain ⟨hv, -⟩ := hg
           simp [Module.inputByteCount, Module.outputByteCount, Di.Mod.inputByteCount,
            Di.Mod.outputByteCount, Do.Mod.inputByteCount, Do.Mod.outputByteCount,
            Ai.Mod.inputByteCount, hv, inputBytes, outputBytes, Di.Variant.moduleType,
            Do.Variant.moduleType, Ai.Variant.moduleType, ModuleType.channelCount])
        | exact ⟨rfl, rfl⟩

/-- A module of a coupler comes from the entries of the configuration at the same place. -/
theorem reachable_at {oc : Bool} {cfg : CouplerConfig} {c : Coupler} (hr : ReachableFrom oc cfg c)
    {j : Nat} {m : Module} {off : ModuleOffset} (hm : ModuleAt c j m off) :
    ∃ t par o i, ConfiguredAt cfg j t par o i ∧ Module.create t par = .ok m ∧
      off = ⟨wordToOffset i, wordToOffset o⟩ := by
  obtain ⟨c0, ops, h0, rfl⟩ := hr
  obtain ⟨hm1, hm2⟩ := hm
  rw [(run_static oc c0 ops).1] at hm1
  rw [(run_static oc c0 ops).2] at hm2
  obtain ⟨hlen, holen, hmod, -⟩ := (C13_success cfg).2 c0 h0
  obtain ⟨hl1, -⟩ := new_ok h0
  have hj := (List.getElem?_eq_some_iff.1 hm1).1
  obtain ⟨m', o, n, h1, h2, h3, h4, h5⟩ := hmod j _ _
    (List.getElem?_eq_getElem (show j < cfg.modules.length by omega))
    (List.getElem?_eq_getElem (show j < cfg.params.length by omega))
  rw [hm1] at h1
  cases h1
  rw [hm2] at h5
  cases h5
  exact ⟨_, _, o, n, ⟨List.getElem?_eq_getElem _, List.getElem?_eq_getElem _, h3, h4⟩, h2, rfl⟩

/-- Every entry of a configuration is a module of the coupler. -/
theorem configured_at {oc : Bool} {cfg : CouplerConfig} {c : Coupler} (hr : ReachableFrom oc cfg c)
    {j : Nat} {t : ModuleType} {par : List Word} {o i : Word} (hc : ConfiguredAt cfg j t par o i) :
    ∃ m, ModuleAt c j m ⟨wordToOffset i, wordToOffset o⟩ ∧ Module.create t par = .ok m := by
  obtain ⟨c0, ops, h0, rfl⟩ := hr
  obtain ⟨hlen, holen, hmod, -⟩ := (C13_success cfg).2 c0 h0
  obtain ⟨ht, hp, ho, hi⟩ := hc
  obtain ⟨m', o', n, h1, h2, h3, h4, h5⟩ := hmod j _ _ ht hp
  rw [ho] at h3
  rw [hi] at h4
  cases h3
  cases h4
  refine ⟨m', ⟨?_, ?_⟩, h2⟩
  · rw [(run_static oc c0 ops).1, h1]
  · rw [(run_static oc c0 ops).2, h5]; rfl

theorem wordToOffset_some {w v : Word} : wordToOffset w = some v ↔ w ≠ noOffset ∧ v = w := by
  unfold wordToOffset noOffset
  split
  · rename_i h; simp [h]
  · rename_i h; simp [h, eq_comm]

/-- The registers cut out for a module whose data is in the image. -/
theorem prepareRaw_covers {oc : Bool} {off addr : Word} {bytes : Nat} {data : List Word}
    (ha : addr.toNat * 16 ≤ off.toNat) (hc : HasRegisters data (off.toNat - addr.toNat * 16) bytes) :
    ∃ raw, prepareRawDataToProcess oc off addr bytes data = .ok raw ∧
      raw.length = rawWords bytes := by
  obtain ⟨h0, h1, h2⟩ := hc
  have hs := rawStart_eq off addr ha
  have hfit : ¬ rawStart off addr + rawWords bytes > data.length := by
    rw [hs]; unfold rawWords; split <;> omega
  have hp : ∃ raw, prepareRawDataToProcess oc off addr bytes data = .ok raw := by
    rw [prepareRaw_unfold, if_neg (by
      simp only [Bool.and_eq_true, decide_eq_true_eq, not_and]; omega), if_neg hfit]
    split
    · exact ⟨_, rfl⟩
    · rw [if_pos (by omega)]
      have hne : (data.drop (rawStart off addr)).take (rawWords bytes) ≠ [] := by
        intro hnil
        have := congrArg List.length hnil
        rw [List.length_take, List.length_drop] at this
        have := rawWords_pos bytes
        simp only [List.length_nil] at *
        omega
      obtain ⟨raw, hraw, -⟩ := shiftData_spec _ hne
      exact ⟨raw, hraw⟩
  obtain ⟨raw, hraw⟩ := hp
  exact ⟨raw, hraw, (prepareRaw_ok hraw).1⟩

/-- Every module decodes input data of its size; the serial module is treated separately. -/
theorem processInputData_total {t : ModuleType} {par : List Word} {m : Module}
    (hc : Module.create t par = .ok m) (hs : ¬ IsSerial m) (hn : m.inputByteCount ≠ 0)
    {ws : List Word} (hl : ws.length = rawWords m.inputByteCount) :
    ∃ vs, m.processInputData ws = .ok vs := by
  cases ha : analogInputs m with
  | some ps =>
    have h2 := analogInputs_length hc ha
    exact ⟨_, analogInputs_decode hc ha ws (by rw [hl, h2]; unfold rawWords; split <;> omega)⟩
  | none =>
    have hg := create_good hc
    cases m with
    | di m =>
      have h1 : m.inputByteCount = 1 := by
        unfold Di.Mod.inputByteCount
        cases m.variant <;> rfl
      simp only [Module.inputByteCount, h1] at hl
      have hl1 : ws.length = 1 := hl
      simp only [Module.processInputData, Di.Mod.processInputData, hl1, ne_eq, not_true, if_false]
      rw [idx_of_lt (by omega)]
      exact ⟨_, rfl⟩
    | rtd m =>
      obtain ⟨vs, h1, -⟩ := C56_rtd t par m hc ws (hl.trans (by decide : rawWords 8 = 4))
      exact ⟨vs, h1⟩
    | tc m =>
      obtain ⟨vs, h1, -⟩ := C57_thermocouple m ws (hl.trans (by decide : rawWords 8 = 4))
      exact ⟨vs, h1⟩
    | fcnt m =>
      have hl10 : ws.length = 10 := hl.trans (by decide : rawWords 20 = 10)
      have hp : m.chParams.length = 2 := by cases t <;> simp only [IsCreated] at hg; exact hg
      simp only [Module.processInputData, Fcnt.Mod.processInputData, hl10, hp, ne_eq, not_true,
        if_false]
      refine mapRes_total fun i hi => ?_
      rw [List.mem_range] at hi
      simp only [Fcnt.inputChannel, Res.bind_eq]
      rw [idx_of_lt (by omega), idx_of_lt (by omega), idx_of_lt (by omega), idx_of_lt (by omega),
        idx_of_lt (by omega)]
      exact ⟨_, rfl⟩
    | sil =>
      have hl2 : ws.length = 2 := hl
      simp only [Module.processInputData, Sil.processInputData, hl2, ne_eq, not_true, if_false]
      rw [idx_of_lt (by omega), idx_of_lt (by omega)]
      exact ⟨_, rfl⟩
    | com m => exact absurd ⟨m, rfl⟩ hs
    | ai m => cases ha
    | aiDiag m => cases ha
    | aiI m => cases ha
    | dout m => exact absurd rfl hn
    | do16 => exact absurd rfl hn
    | ro m => exact absurd rfl hn
    | ao m => exact absurd rfl hn
    | aoDiag m => exact absurd rfl hn

/-- Every module decodes output data of its size. -/
theorem processOutputData_total {t : ModuleType} {par : List Word} {m : Module}
    (hc : Module.create t par = .ok m) (hs : ¬ IsSerial m) (hn : m.outputByteCount ≠ 0)
    {ws : List Word} (hl : ws.length = rawWords m.outputByteCount) :
    ∃ vs, m.processOutputData ws = .ok vs := by
  cases ha : analogOutputs m with
  | some ps =>
    have h2 := (analogOutputs_length hc ha).2
    exact ⟨_, analogOutputs_decode hc ha ws (by rw [hl, h2]; rfl)⟩
  | none =>
    cases hd : digitalOutputs m with
    | some n =>
      obtain ⟨-, -, h1, -⟩ := digitalOutputs_spec m n hd
      have hl1 : ws.length = 1 := by
        rw [hl, digitalOutputs_bytes hd]; split <;> rfl
      rw [h1, if_neg (by omega), idx_of_lt (by omega)]
      exact ⟨_, rfl⟩
    | none =>
      cases m with
      | fcnt m =>
        have hl6 : ws.length = 6 := hl.trans (by decide : rawWords 12 = 6)
        simp only [Module.processOutputData, Fcnt.Mod.processOutputData, hl6, ne_eq, not_true,
          if_false]
        refine mapRes_total fun i hi => ?_
        rw [List.mem_range] at hi
        simp only [Fcnt.outputChannel, Res.bind_eq]
        rw [idx_of_lt (by omega), idx_of_lt (by omega), idx_of_lt (by omega)]
        exact ⟨_, rfl⟩
      | com m => exact absurd ⟨m, rfl⟩ hs
      | dout m => rcases m with ⟨v, ps⟩; cases v <;> cases hd
      | do16 => cases hd
      | ro m => cases hd
      | ao m => cases ha
      | aoDiag m => cases ha
      | di m => exact absurd rfl hn
      | rtd m => exact absurd rfl hn
      | tc m => exact absurd rfl hn
      | sil => exact absurd rfl hn
      | ai m => exact absurd rfl hn
      | aiDiag m => exact absurd rfl hn
      | aiI m => exact absurd rfl hn

theorem rsIn_total {bytes : List Byte} (h2 : 2 ≤ bytes.length)
    (hn : ∀ n, bytes[1]? = some n → n.toNat + 2 ≤ bytes.length) :
    ∃ v, rsInFromBytes bytes = .ok v := by
  match bytes, h2 with
  | s :: n :: rest, _ =>
    have := hn n rfl
    simp only [List.length_cons] at this
    rw [rsInFromBytes_cons, if_neg (by omega)]
    exact ⟨_, rfl⟩

theorem rsOut_total {bytes : List Byte} (h2 : 2 ≤ bytes.length)
    (hn : ∀ n, bytes[1]? = some n → n.toNat + 2 ≤ bytes.length) :
    ∃ v, rsOutFromBytes bytes = .ok v := by
  match bytes, h2 with
  | s :: n :: rest, _ =>
    have := hn n rfl
    simp only [List.length_cons] at this
    rw [rsOutFromBytes_cons, if_neg (by omega)]
    exact ⟨_, rfl⟩

theorem isSerial_type {t : ModuleType} {par : List Word} {m : Module}
    (hc : Module.create t par = .ok m) : IsSerial m ↔ t = .UR20_1COM_232_485_422 :=
  isCreated_serial (create_good hc)

/-- The bytes of the frame cut out for a serial module. -/
theorem frame_raw {oc : Bool} {off addr : Word} {data raw : List Word} {len : ProcessDataLength}
    (ha : addr.toNat * 16 ≤ off.toNat)
    (hc : HasRegisters data (off.toNat - addr.toNat * 16) len.byteCount)
    (hf : FrameFits data ((off.toNat - addr.toNat * 16) / 8) len.byteCount)
    (h : prepareRawDataToProcess oc off addr len.byteCount data = .ok raw) :
    (u16ToU8 raw).length = len.byteCount ∧
      ∀ n, (u16ToU8 raw)[1]? = some n → n.toNat + 2 ≤ len.byteCount := by
  have hl := (prepareRaw_ok h).1
  have he := byteCount_even len
  refine ⟨by rw [u16ToU8_length, hl]; exact he, fun n hn => hf n ?_⟩
  have h8 : 8 ≤ len.byteCount := by cases len <;> decide
  rw [← byteAt_eq, prepareRaw_bytes h ha 1 (by omega)] at hn
  exact hn

/-- The input data of a module is decoded if it is in the image. -/
theorem moduleInput_total (oc : Bool) {pi : List Word} {t : ModuleType} {par : List Word}
    {m : Module} (hc : Module.create t par = .ok m) (i : Word) (out : Option Word)
    (hcov : HasRegisters pi i.toNat (inputBytes t par))
    (hf : t = .UR20_1COM_232_485_422 → FrameFits pi (i.toNat / 8) (inputBytes t par)) :
    ∃ vs, moduleInput oc pi m ⟨some i, out⟩ = .ok vs := by
  have hb := (create_bytes hc).1
  rw [← hb] at hcov hf
  have ha : addrPackedProcessInputData.toNat * 16 = 0 := by decide
  obtain ⟨raw, h1, h2⟩ := prepareRaw_covers (oc := oc) (off := i)
    (addr := addrPackedProcessInputData) (by rw [ha]; omega) (by rw [ha]; exact hcov)
  simp only [moduleInput, Res.bind_eq, h1, Res.bind]
  by_cases hs : IsSerial m
  · have ht := (isSerial_type hc).1 hs
    obtain ⟨cm, rfl⟩ := hs
    obtain ⟨hl, hn⟩ := frame_raw (len := cm.processDataLen) (by rw [ha]; omega)
      (by rw [ha]; exact hcov) (by rw [ha]; exact hf ht) h1
    obtain ⟨v, hv⟩ := rsIn_total (bytes := u16ToU8 raw)
      (by rw [hl]; cases cm.processDataLen <;> decide) (by rw [hl]; exact hn)
    simp only [Module.processInputData, Com.Mod.processInputData, Res.bind_eq, hv, Res.bind]
    exact ⟨_, rfl⟩
  · exact processInputData_total hc hs (by have := hcov.1; omega) h2

/-- The output data of a module is decoded if it is in the image. -/
theorem moduleOutput_total (oc : Bool) {po : List Word} {t : ModuleType} {par : List Word}
    {m : Module} (hc : Module.create t par = .ok m) (o : Word) (inp : Option Word)
    (hbase : outputBase ≤ o.toNat) (hcov : HasRegisters po (outBit o) (outputBytes t par))
    (hf : t = .UR20_1COM_232_485_422 → FrameFits po (outByte o) (outputBytes t par)) :
    ∃ vs, moduleOutput oc po m ⟨inp, some o⟩ = .ok vs := by
  have hb := (create_bytes hc).2
  rw [← hb] at hcov hf
  have ha : addrPackedProcessOutputData.toNat * 16 = outputBase := by decide
  obtain ⟨raw, h1, h2⟩ := prepareRaw_covers (oc := oc) (off := o)
    (addr := addrPackedProcessOutputData) (by rw [ha]; omega) (by rw [ha]; exact hcov)
  simp only [moduleOutput, Res.bind_eq, h1, Res.bind]
  by_cases hs : IsSerial m
  · have ht := (isSerial_type hc).1 hs
    obtain ⟨cm, rfl⟩ := hs
    obtain ⟨hl, hn⟩ := frame_raw (len := cm.processDataLen) (by rw [ha]; omega)
      (by rw [ha]; exact hcov) (by rw [ha]; exact hf ht) h1
    obtain ⟨v, hv⟩ := rsOut_total (bytes := u16ToU8 raw)
      (by rw [hl]; cases cm.processDataLen <;> decide) (by rw [hl]; exact hn)
    simp only [Module.processOutputData, Com.Mod.processOutputData, Res.bind_eq, hv, Res.bind]
    exact ⟨_, rfl⟩
  · exact processOutputData_total hc hs (by have := hcov.1; omega) h2

end Ur20
