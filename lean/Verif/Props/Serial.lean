import Verif.Lemmas.Serial
import Verif.Spec.Capacity

/-!
# C19–C22: the frames of the serial module
-/

namespace Ur20

open Com

/-- C19: a message with counters below 4 and data within the capacity encodes to a frame of exactly
8 or 16 bytes, and decoding the frame returns the message. -/
theorem C19_round_trip (o : RsOut) (len : ProcessDataLength) (h1 : o.txCnt < 4)
    (h2 : o.rxCntAck < 4) (h3 : o.data.length ≤ capacity len) :
    ∃ bytes, rsOutToBytes o len = .ok bytes ∧ bytes.length = capacity len + 2 ∧
      rsOutFromBytes bytes = .ok o := by
  have hc : capacity len = len.userDataLen := by cases len <;> rfl
  rw [hc] at h3 ⊢
  refine ⟨_, rsOutToBytes_ok o len h1 h2 h3, ?_, ?_⟩
  · simp; omega
  · exact rsOutFromBytes_toBytes o _ h1 h2 (by have := userDataLen_le len; omega)

/-- C19, the documented frame layout: status byte, number of data bytes, data, zero padding. The
status byte holds rx flush (0), tx flush (1), disable hardware buffer (2), tx counter (3–4), rx
acknowledge (5–6) and reset (7). -/
theorem C19_layout (o : RsOut) (len : ProcessDataLength) (bytes : List Byte)
    (h : rsOutToBytes o len = .ok bytes) :
    ∃ status n pad, bytes = status :: n :: (o.data ++ pad) ∧ n.toNat = o.data.length ∧
      (∀ b ∈ pad, b = 0#8) ∧
      status.getLsbD 0 = o.rxBufFlush ∧ status.getLsbD 1 = o.txBufFlush ∧
      status.getLsbD 2 = o.disableTxHwBuffer ∧ status.toNat / 8 % 4 = o.txCnt ∧
      status.toNat / 32 % 4 = o.rxCntAck ∧ status.getLsbD 7 = o.reset := by
  have h1 : o.txCnt < 4 ∧ o.rxCntAck < 4 := by
    unfold rsOutToBytes at h
    split at h
    · simp at h
    · rename_i hn; simp at hn; omega
  have h3 : o.data.length ≤ len.userDataLen := by
    unfold rsOutToBytes at h
    split at h
    · simp at h
    · split at h
      · simp at h
      · omega
  rw [rsOutToBytes_ok o len h1.1 h1.2 h3] at h
  obtain ⟨f0, f1, f2, f7, ft, fr⟩ := statusByte_fields o h1.1 h1.2
  simp only [Res.ok.injEq] at h
  refine ⟨_, _, _, h.symm, ?_, ?_, f0, f1, f2, ft, fr, f7⟩
  · rw [BitVec.toNat_ofNat, Nat.mod_eq_of_lt (by have := userDataLen_le len; omega)]
  · intro b hb; exact (List.mem_replicate.1 hb).2

example : rsOutToBytes ⟨true, false, false, 2, 3, true, [0xAB#8, 0xCD#8]⟩ .EightBytes
    = .ok [0b11110001#8, 2#8, 0xAB#8, 0xCD#8, 0#8, 0#8, 0#8, 0#8] := by decide

/-- C20: which messages are rejected, and how; everything else is encoded and there is no panic. -/
theorem C20_errors (o : RsOut) (len : ProcessDataLength) :
    (rsOutToBytes o len = .err .sequenceNumber ↔ 3 < o.txCnt ∨ 3 < o.rxCntAck) ∧
    (rsOutToBytes o len = .err .dataLength ↔
      o.txCnt ≤ 3 ∧ o.rxCntAck ≤ 3 ∧ capacity len < o.data.length) ∧
    ((∃ bytes, rsOutToBytes o len = .ok bytes) ↔
      o.txCnt ≤ 3 ∧ o.rxCntAck ≤ 3 ∧ o.data.length ≤ capacity len) := by
  have hc : capacity len = len.userDataLen := by cases len <;> rfl
  rw [hc]
  by_cases h1 : 3 < o.txCnt ∨ 3 < o.rxCntAck
  · have e : rsOutToBytes o len = .err .sequenceNumber := by
      unfold rsOutToBytes; rw [if_pos (by simpa using h1)]
    rw [e]
    refine ⟨by simp [h1], by simp; omega, ?_⟩
    constructor
    · rintro ⟨_, h⟩; simp at h
    · omega
  · by_cases h2 : len.userDataLen < o.data.length
    · have e : rsOutToBytes o len = .err .dataLength := by
        unfold rsOutToBytes; rw [if_neg (by simpa using h1), if_pos h2]
      rw [e]
      refine ⟨by simp; omega, by simp; omega, ?_⟩
      constructor
      · rintro ⟨_, h⟩; simp at h
      · omega
    · rw [rsOutToBytes_ok o len (by omega) (by omega) (by omega)]
      refine ⟨by simp; omega, by simp; omega, ?_⟩
      constructor
      · intro _; omega
      · intro _; exact ⟨_, rfl⟩

example : rsOutToBytes ⟨true, false, false, 4, 0, true, []⟩ .EightBytes = .err .sequenceNumber ∧
    rsOutToBytes ⟨true, false, false, 3, 0, true, List.replicate 7 1#8⟩ .EightBytes
      = .err .dataLength := by decide

/-- C21 for input frames: rejected exactly when shorter than 2 bytes or than announced; otherwise
every field is its documented bit field. -/
theorem C21_input (bytes : List Byte) :
    (rsInFromBytes bytes = .err .bufferLength ↔
      bytes.length < 2 ∨ ∃ n, bytes[1]? = some n ∧ bytes.length < 2 + n.toNat) ∧
    (∀ status n rest, bytes = status :: n :: rest → n.toNat ≤ rest.length →
      rsInFromBytes bytes = .ok {
        dataAvailable := status.getLsbD 0
        bufferNearlyFull := status.getLsbD 1
        rxCnt := status.toNat / 8 % 4
        txCntAck := status.toNat / 32 % 4
        ready := status.getLsbD 7
        data := rest.take n.toNat }) := by
  match bytes with
  | [] => simp [rsInFromBytes_short]
  | [_] => simp [rsInFromBytes_short]
  | s :: len :: rest =>
    rw [rsInFromBytes_cons]
    constructor
    · by_cases h : rest.length < len.toNat
      · rw [if_pos h]; simp; omega
      · rw [if_neg h]; simp; omega
    · intro s' n' rest' h hl
      simp only [List.cons.injEq] at h
      obtain ⟨rfl, rfl, rfl⟩ := h
      rw [if_neg (by omega)]

/-- C21 for output frames. -/
theorem C21_output (bytes : List Byte) :
    (rsOutFromBytes bytes = .err .bufferLength ↔
      bytes.length < 2 ∨ ∃ n, bytes[1]? = some n ∧ bytes.length < 2 + n.toNat) ∧
    (∀ status n rest, bytes = status :: n :: rest → n.toNat ≤ rest.length →
      rsOutFromBytes bytes = .ok {
        rxBufFlush := status.getLsbD 0
        txBufFlush := status.getLsbD 1
        disableTxHwBuffer := status.getLsbD 2
        txCnt := status.toNat / 8 % 4
        rxCntAck := status.toNat / 32 % 4
        reset := status.getLsbD 7
        data := rest.take n.toNat }) := by
  match bytes with
  | [] => simp [rsOutFromBytes_short]
  | [_] => simp [rsOutFromBytes_short]
  | s :: len :: rest =>
    rw [rsOutFromBytes_cons]
    constructor
    · by_cases h : rest.length < len.toNat
      · rw [if_pos h]; simp; omega
      · rw [if_neg h]; simp; omega
    · intro s' n' rest' h hl
      simp only [List.cons.injEq] at h
      obtain ⟨rfl, rfl, rfl⟩ := h
      rw [if_neg (by omega)]

/-- C21: decoded counters are always below 4, and decoded data fits the announced length. -/
theorem C21_counters (bytes : List Byte) :
    (∀ v, rsInFromBytes bytes = .ok v → v.rxCnt < 4 ∧ v.txCntAck < 4 ∧
      v.data.length + 2 ≤ bytes.length) ∧
    (∀ v, rsOutFromBytes bytes = .ok v → v.txCnt < 4 ∧ v.rxCntAck < 4 ∧
      v.data.length + 2 ≤ bytes.length) := by
  match bytes with
  | [] => simp [rsOutFromBytes_short, rsInFromBytes_short]
  | [_] => simp [rsOutFromBytes_short, rsInFromBytes_short]
  | s :: len :: rest =>
    rw [rsOutFromBytes_cons, rsInFromBytes_cons]
    by_cases h : rest.length < len.toNat
    · simp [h]
    · rw [if_neg h, if_neg h]
      constructor
      · rintro v ⟨⟩
        simp; omega
      · rintro v ⟨⟩
        simp; omega

example : rsInFromBytes [0b11011001#8, 2#8, 7#8, 8#8, 9#8]
    = .ok ⟨true, false, 3, 2, true, [7#8, 8#8]⟩ := by decide
example : rsInFromBytes [0#8, 4#8, 7#8, 8#8, 9#8] = .err .bufferLength := by decide

/-- C22: encoding a valid message to registers and decoding the registers returns the message. -/
theorem C22_registers (m : Com.Mod) (o : RsOut) (h1 : o.txCnt < 4) (h2 : o.rxCntAck < 4)
    (h3 : o.data.length ≤ capacity m.processDataLen) :
    ∃ ws, (Module.com m).processOutputValues [.comRsOut o] = .ok ws ∧
      2 * ws.length = capacity m.processDataLen + 2 ∧
      (Module.com m).processOutputData ws = .ok [.comRsOut o] := by
  have hc : capacity m.processDataLen = m.processDataLen.userDataLen := by
    cases m.processDataLen <;> rfl
  obtain ⟨bytes, hb, hl, hd⟩ := C19_round_trip o m.processDataLen h1 h2 h3
  have heven : bytes.length % 2 = 0 := by
    rw [hl]; cases m.processDataLen <;> rfl
  refine ⟨u8ToU16 bytes, ?_, ?_, ?_⟩
  · simp only [Module.processOutputValues, Com.Mod.processOutputValues]
    rw [if_neg (by omega), hb]; rfl
  · rw [u8ToU16_length]; omega
  · simp only [Module.processOutputData, Com.Mod.processOutputData]
    rw [u16ToU8_u8ToU16 _ heven, hd]; rfl

example : (Module.com ⟨.EightBytes, []⟩).processOutputValues
      [.comRsOut ⟨false, false, false, 1, 2, false, [1#8, 2#8, 3#8]⟩]
    = .ok [0x0348#16, 0x0201#16, 0x0003#16, 0#16] := by decide

end Ur20
