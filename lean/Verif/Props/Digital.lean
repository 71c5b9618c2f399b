import Verif.Lemmas.Digital

/-!
# C15–C18: digital inputs, digital outputs and the safety module
-/

namespace Ur20

open Spec

/-- C15: a digital input module takes exactly one word and reports channel `i` as its bit `i`. -/
theorem C15_digital_input (m : Module) (n : Nat) (hm : digitalInputs m = some n)
    (ws : List Word) :
    (ws.length ≠ 1 → m.processInputData ws = .err .bufferLength) ∧
    (∀ w, ws = [w] → ∃ vs, m.processInputData ws = .ok vs ∧ vs.length = n ∧
      ∀ i, i < n → vs[i]? = some (.bit (w.getLsbD i))) := by
  unfold digitalInputs at hm
  split at hm <;> simp only [Option.some.injEq, reduceCtorEq] at hm <;> subst hm
  · refine ⟨fun h => ?_, ?_⟩
    · simp [Module.processInputData, Di.Mod.processInputData, h]
    · rintro w rfl
      exact ⟨bitValues 4 w, rfl, bitValues_length 4 w, fun i hi => bitValues_getElem? 4 w i (by omega) hi⟩
  · refine ⟨fun h => ?_, ?_⟩
    · simp [Module.processInputData, Di.Mod.processInputData, h]
    · rintro w rfl
      exact ⟨bitValues 8 w, rfl, bitValues_length 8 w, fun i hi => bitValues_getElem? 8 w i (by omega) hi⟩

example : digitalInputs (.di ⟨.UR20_4DI_P, []⟩) = some 4 ∧
    (Module.di ⟨.UR20_4DI_P, []⟩).processInputData [0xFFF6#16]
      = .ok [.bit false, .bit true, .bit true, .bit false] := by decide

/-- C16: encoding succeeds exactly for `n` values that are all `Bit` or `Disabled`; every failure
is `ChannelValue`. -/
theorem C16_accepts (m : Module) (n : Nat) (hm : digitalOutputs m = some n)
    (vs : List ChannelValue) :
    ((∃ ws, m.processOutputValues vs = .ok ws) ↔
      vs.length = n ∧ ∀ v ∈ vs, (∃ b, v = .bit b) ∨ v = .disabled) ∧
    ((¬ ∃ ws, m.processOutputValues vs = .ok ws) →
      m.processOutputValues vs = .err .channelValue) := by
  obtain ⟨-, -, -, henc⟩ := digitalOutputs_spec m n hm
  rw [henc vs]
  by_cases hl : vs.length = n
  · simp only [hl, ne_eq, not_true_eq_false, if_false, true_and]
    by_cases hall : ∀ v ∈ vs, IsBitOrDisabled v
    · obtain ⟨w, hw, -⟩ := encodeBits_ok 0 0#16 vs hall
      rw [hw]
      exact ⟨⟨fun _ => hall, fun _ => ⟨_, rfl⟩⟩, fun h => absurd ⟨_, rfl⟩ h⟩
    · rw [encodeBits_err 0 0#16 vs hall]
      refine ⟨⟨?_, fun h => absurd h hall⟩, fun _ => rfl⟩
      rintro ⟨ws, h⟩
      simp at h
  · simp [hl]

/-- C16: the encoded word has bit `i` set exactly when channel `i` is `Bit(true)`; in particular
all bits above the channel count are 0. -/
theorem C16_bits (m : Module) (n : Nat) (hm : digitalOutputs m = some n)
    (vs : List ChannelValue) (ws : List Word) (h : m.processOutputValues vs = .ok ws) :
    ∃ w, ws = [w] ∧ ∀ i, i < 16 → (w.getLsbD i = true ↔ vs[i]? = some (.bit true)) := by
  have hall := ((C16_accepts m n hm vs).1.1 ⟨ws, h⟩)
  obtain ⟨-, -, -, henc⟩ := digitalOutputs_spec m n hm
  obtain ⟨w, hw, hb⟩ := encodeBits_ok 0 0#16 vs hall.2
  rw [henc vs, if_neg (by simp [hall.1]), hw] at h
  simp at h
  refine ⟨w, h.symm, fun i hi => ?_⟩
  rw [hb i hi]
  simp

example : (Module.dout ⟨.UR20_4DO_P, []⟩).processOutputValues
    [.bit true, .disabled, .bit false, .bit true] = .ok [0b1001#16] := by decide
example : Module.do16.processOutputValues [.bit true] = .err .channelValue := by decide

/-- C17: decoding a word and encoding the result keeps the bits of the channels and clears all
others. -/
theorem C17_decode_encode (m : Module) (n : Nat) (hm : digitalOutputs m = some n) (w : Word) :
    ∃ vs w', m.processOutputData [w] = .ok vs ∧ vs.length = n ∧
      m.processOutputValues vs = .ok [w'] ∧
      ∀ i, i < 16 → w'.getLsbD i = (decide (i < n) && w.getLsbD i) := by
  obtain ⟨hn, -, hdec, henc⟩ := digitalOutputs_spec m n hm
  have hall : ∀ v ∈ bitValues n w, IsBitOrDisabled v := by
    intro v hv
    simp only [bitValues, List.mem_map] at hv
    obtain ⟨i, -, rfl⟩ := hv
    exact .inl ⟨_, rfl⟩
  obtain ⟨w', hw', hb⟩ := encodeBits_ok 0 0#16 _ hall
  refine ⟨bitValues n w, w', by rw [hdec]; simp, bitValues_length n w, ?_, ?_⟩
  · rw [henc, if_neg (by simp [bitValues_length]), hw']; rfl
  · intro i hi
    rw [Bool.eq_iff_iff, hb i hi]
    by_cases hin : i < n
    · simp [hin, bitValues_getElem? n w i hn hin]
    · simp [hin, bitValues]

/-- C17: encoding bits and decoding the word returns the bits. -/
theorem C17_encode_decode (m : Module) (n : Nat) (hm : digitalOutputs m = some n)
    (bs : List Bool) (hb : bs.length = n) :
    ∃ ws, m.processOutputValues (bs.map .bit) = .ok ws ∧
      m.processOutputData ws = .ok (bs.map .bit) := by
  obtain ⟨hn, -, hdec, henc⟩ := digitalOutputs_spec m n hm
  obtain ⟨ws, hws⟩ := (C16_accepts m n hm (bs.map .bit)).1.2 ⟨by simp [hb], by
    intro v hv
    obtain ⟨b, -, rfl⟩ := List.mem_map.1 hv
    exact .inl ⟨b, rfl⟩⟩
  obtain ⟨w, rfl, hbits⟩ := C16_bits m n hm _ ws hws
  refine ⟨[w], hws, ?_⟩
  rw [hdec]
  simp only [List.length_singleton, ne_eq, not_true_eq_false, if_false, idx_cons_zero, Res.map_ok,
    Res.ok.injEq]
  apply List.ext_getElem?
  intro i
  by_cases hi : i < n
  · rw [bitValues_getElem? n w i hn hi, List.getElem?_map, List.getElem?_eq_getElem (by omega)]
    have := hbits i (by omega)
    rw [List.getElem?_map, List.getElem?_eq_getElem (by omega)] at this
    simp only [Option.map_some, Option.some.injEq, ChannelValue.bit.injEq] at this ⊢
    rw [Bool.eq_iff_iff]; simpa using this
  · rw [List.getElem?_eq_none (by rw [bitValues_length]; omega),
      List.getElem?_eq_none (by rw [List.length_map]; omega)]

example : digitalOutputs (.ro ⟨[]⟩) = some 4 ∧ digitalOutputs .do16 = some 16 := by decide
example : (Module.ro ⟨[]⟩).processOutputData [0xFFF5#16]
      = .ok [.bit true, .bit false, .bit true, .bit false] ∧
    (Module.ro ⟨[]⟩).processOutputValues [.bit true, .bit false, .bit true, .bit false]
      = .ok [5#16] := by decide

/-- C18: the safety module takes exactly two words; each flag is one documented bit of the first
word (byte 0 is the low byte, byte 1 the high byte), and nothing else matters. -/
theorem C18_safety (ws : List Word) :
    (ws.length ≠ 2 → Module.sil.processInputData ws = .err .bufferLength) ∧
    (∀ w0 w1, ws = [w0, w1] → Module.sil.processInputData ws = .ok [.silPFIn {
      safetyInput := w0.getLsbD 0
      autostart := w0.getLsbD 2
      manualStart := w0.getLsbD 3
      safetyInputChannel1 := w0.getLsbD 4
      safetyInputChannel2 := w0.getLsbD 5
      volt24SafeOutput := w0.getLsbD 8
      volt24Dc := w0.getLsbD 10 }]) := by
  refine ⟨fun h => ?_, ?_⟩
  · simp [Module.processInputData, Sil.processInputData, h]
  · rintro w0 w1 rfl
    simp [Module.processInputData, Sil.processInputData, testBit_eq, getLsbD_loByte,
      getLsbD_hiByte, -BitVec.getLsbD_eq_getElem]

example : Module.sil.processInputData [0x0415#16, 0xFFFF#16] = .ok [.silPFIn {
    safetyInput := true, autostart := true, manualStart := false, safetyInputChannel1 := true,
    safetyInputChannel2 := false, volt24SafeOutput := false, volt24Dc := true }] := by decide

end Ur20
