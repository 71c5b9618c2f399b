import Verif.Lemmas.Bits

/-! Lemmas about the serial frame codec. -/

namespace Ur20.Com

open Ur20

theorem byte_cases {P : Byte → Prop} (h : ∀ n : Fin 256, P (BitVec.ofNat 8 n.val)) (b : Byte) :
    P b := by
  have := h ⟨b.toNat, b.isLt⟩
  simpa using this

theorem cntFromStatusByte_eq (b : Byte) : cntFromStatusByte b = b.toNat / 8 % 4 := by
  refine byte_cases (P := fun b => cntFromStatusByte b = b.toNat / 8 % 4) ?_ b
  decide +kernel

theorem cntAckFromStatusByte_eq (b : Byte) : cntAckFromStatusByte b = b.toNat / 32 % 4 := by
  refine byte_cases (P := fun b => cntAckFromStatusByte b = b.toNat / 32 % 4) ?_ b
  decide +kernel

theorem rsInFromBytes_short (bs : List Byte) (h : bs.length < 2) :
    rsInFromBytes bs = .err .bufferLength := by
  simp [rsInFromBytes, h]

theorem rsInFromBytes_cons (s len : Byte) (rest : List Byte) :
    rsInFromBytes (s :: len :: rest) =
      if rest.length < len.toNat then .err .bufferLength
      else .ok {
        dataAvailable := s.getLsbD 0
        bufferNearlyFull := s.getLsbD 1
        rxCnt := s.toNat / 8 % 4
        txCntAck := s.toNat / 32 % 4
        ready := s.getLsbD 7
        data := rest.take len.toNat } := by
  have h : ((s :: len :: rest).length < len.toNat + 2) ↔ rest.length < len.toNat := by
    simp only [List.length_cons]; omega
  unfold rsInFromBytes
  simp only [List.length_cons, show ¬ rest.length + 1 + 1 < 2 by omega, if_false, idx_cons_zero,
    idx_cons_succ, Res.bind_eq, Res.bind_ok]
  by_cases hl : rest.length < len.toNat
  · rw [if_pos (by omega), if_pos hl]
  · rw [if_neg (by omega), if_neg hl]
    simp only [Res.pure_eq, testBit_eq s 0 (by omega), testBit_eq s 1 (by omega),
      testBit_eq s 7 (by omega), cntFromStatusByte_eq, cntAckFromStatusByte_eq]
    rfl

theorem rsOutFromBytes_short (bs : List Byte) (h : bs.length < 2) :
    rsOutFromBytes bs = .err .bufferLength := by
  simp [rsOutFromBytes, h]

theorem rsOutFromBytes_cons (s len : Byte) (rest : List Byte) :
    rsOutFromBytes (s :: len :: rest) =
      if rest.length < len.toNat then .err .bufferLength
      else .ok {
        rxBufFlush := s.getLsbD 0
        txBufFlush := s.getLsbD 1
        disableTxHwBuffer := s.getLsbD 2
        txCnt := s.toNat / 8 % 4
        rxCntAck := s.toNat / 32 % 4
        reset := s.getLsbD 7
        data := rest.take len.toNat } := by
  unfold rsOutFromBytes
  simp only [List.length_cons, show ¬ rest.length + 1 + 1 < 2 by omega, if_false, idx_cons_zero,
    idx_cons_succ, Res.bind_eq, Res.bind_ok]
  by_cases hl : rest.length < len.toNat
  · rw [if_pos (by omega), if_pos hl]
  · rw [if_neg (by omega), if_neg hl]
    simp only [Res.pure_eq, testBit_eq s 0 (by omega), testBit_eq s 1 (by omega),
      testBit_eq s 2 (by omega),
      testBit_eq s 7 (by omega), cntFromStatusByte_eq, cntAckFromStatusByte_eq]
    rfl

/-- The fields of the status byte for all flags and all counters below 4. -/
theorem statusByte_fields (o : RsOut) (h1 : o.txCnt < 4) (h2 : o.rxCntAck < 4) :
    (statusByte o).getLsbD 0 = o.rxBufFlush ∧ (statusByte o).getLsbD 1 = o.txBufFlush ∧
    (statusByte o).getLsbD 2 = o.disableTxHwBuffer ∧ (statusByte o).getLsbD 7 = o.reset ∧
    (statusByte o).toNat / 8 % 4 = o.txCnt ∧ (statusByte o).toNat / 32 % 4 = o.rxCntAck := by
  have key : ∀ (a b c r : Bool) (t x : Fin 4),
      let o : RsOut := ⟨a, b, c, t.val, x.val, r, []⟩
      (statusByte o).getLsbD 0 = o.rxBufFlush ∧ (statusByte o).getLsbD 1 = o.txBufFlush ∧
      (statusByte o).getLsbD 2 = o.disableTxHwBuffer ∧ (statusByte o).getLsbD 7 = o.reset ∧
      (statusByte o).toNat / 8 % 4 = o.txCnt ∧ (statusByte o).toNat / 32 % 4 = o.rxCntAck := by
    decide +kernel
  exact key o.rxBufFlush o.txBufFlush o.disableTxHwBuffer o.reset ⟨_, h1⟩ ⟨_, h2⟩

theorem writeData_ok (i : Nat) (msg ds : List Byte) (h : 2 + i + ds.length ≤ msg.length) :
    writeData i msg ds = .ok (msg.take (2 + i) ++ ds ++ msg.drop (2 + i + ds.length)) := by
  induction ds generalizing i msg with
  | nil => simp [writeData]
  | cons d ds ih =>
    simp only [List.length_cons] at h
    rw [writeData, if_pos (by omega), ih (i + 1) _ (by simp; omega)]
    congr 1
    rw [show 2 + (i + 1) = 2 + i + 1 by omega, List.take_succ_eq_append_getElem (by simp; omega)]
    simp only [List.getElem_set_self, List.take_set, List.drop_set]
    rw [if_pos (by omega), List.set_eq_of_length_le (by simp; omega), List.length_cons]
    rw [show 2 + i + 1 + ds.length = 2 + i + (ds.length + 1) by omega]
    simp

theorem byteCount_eq (len : ProcessDataLength) : len.byteCount = len.userDataLen + 2 := by
  cases len <;> rfl

theorem userDataLen_le (len : ProcessDataLength) : len.userDataLen ≤ 14 := by
  cases len <;> decide

theorem userDataLen_pos (len : ProcessDataLength) : 0 < len.userDataLen := by
  cases len <;> decide

/-- A valid message is encoded as status, length, data and zero padding. -/
theorem rsOutToBytes_ok (o : RsOut) (len : ProcessDataLength) (h1 : o.txCnt < 4)
    (h2 : o.rxCntAck < 4) (h3 : o.data.length ≤ len.userDataLen) :
    rsOutToBytes o len = .ok (statusByte o :: BitVec.ofNat 8 o.data.length ::
      (o.data ++ List.replicate (len.userDataLen - o.data.length) 0#8)) := by
  unfold rsOutToBytes
  rw [if_neg (by simp; omega), if_neg (by omega)]
  simp only [byteCount_eq, List.replicate_succ, List.set_cons_zero, List.set_cons_succ]
  rw [writeData_ok 0 _ _ (by simp; omega)]
  congr 1
  simp only [Nat.add_zero, List.take_succ_cons, List.take_zero, List.cons_append, List.nil_append,
    List.cons.injEq, true_and]
  rw [show 2 + o.data.length = o.data.length + 1 + 1 by omega]
  simp

theorem rsOutFromBytes_toBytes (o : RsOut) (rest : List Byte) (h1 : o.txCnt < 4)
    (h2 : o.rxCntAck < 4) (h3 : o.data.length < 256) :
    rsOutFromBytes (statusByte o :: BitVec.ofNat 8 o.data.length :: (o.data ++ rest)) = .ok o := by
  obtain ⟨f0, f1, f2, f7, ft, fr⟩ := statusByte_fields o h1 h2
  have hlen : (BitVec.ofNat 8 o.data.length).toNat = o.data.length := by
    rw [BitVec.toNat_ofNat, Nat.mod_eq_of_lt (by omega)]
  rw [rsOutFromBytes_cons, hlen, if_neg (by simp)]
  simp [f0, f1, f2, f7, ft, fr, -BitVec.getLsbD_eq_getElem]

end Ur20.Com
