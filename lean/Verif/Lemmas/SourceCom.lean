import Verif.Lemmas.SourceAnalog
import Verif.Model.ImperativeCom
import Verif.Source.Ur20_1com_232_485_422

/-!
The translated source of the serial communication module is the model of it.
-/

namespace Ur20.Src.ur20_1com_232_485_422

/-- A character of the parameters as the model has it. -/
def charByte (c : Char) : Byte := BitVec.ofNat 8 c.toNat

/-- The parameters of the channel as the model has them. -/
def ChannelParameters.conv (p : ChannelParameters) : Com.ChannelParameters :=
  ⟨p.operatingMode, p.dataBits, p.baudRate, p.stopBit, p.parity, p.flowControl,
    charByte p.XONChar, charByte p.XOFFChar, p.terminatingResistor⟩

/-- The module as the model has it. -/
def Mod.conv (m : Mod) : Com.Mod := ⟨m.modParams.processDataLen, m.chParams.map (·.conv)⟩

theorem char_byte (b : Byte) : charByte (r_as b : Char) = b := by
  have h : b.toNat < 256 := b.isLt
  have hv : b.toNat.isValidChar := Or.inl (Nat.lt_trans h (by decide))
  simp only [r_as, Cast.cast, charByte]
  apply BitVec.eq_of_toNat_eq
  have hc : (Char.ofNat b.toNat).toNat = b.toNat := by
    rw [Char.ofNat, dif_pos hv]
    rfl
  rw [BitVec.toNat_ofNat, hc]
  exact Nat.mod_eq_of_lt h

theorem char_eq (w : Word) : ((if decide (0 ≤ w) && decide (w ≤ 255) then
      Res.ok (r_as (r_as w : Byte) : Char) else Res.err Error.channelParameter).map charByte) =
    Com.charParam w := by
  have h0 : decide (0 ≤ w) = true := decide_eq_true (Nat.zero_le _)
  have h1 : (w ≤ 255) = (w.toNat ≤ 255) := rfl
  simp only [h0, Bool.true_and, decide_eq_true_eq, Com.charParam, map_ite, Res.map_ok, char_byte, h1]
  rfl

theorem from_eq (oc : Bool) (data : List Word) :
    (Mod.from_modbus_parameter_data oc data).map Mod.conv = Com.fromModbusParameterData data := by
  simp only [Mod.from_modbus_parameter_data, parameters_from_raw_data, Res.bind_eq, Res.pure_eq,
    guard_bind, index_eq, Com.fromModbusParameterData, Com.parametersFromRawData,
    decide_eq_true_eq, ModuleParameters.default, ChannelParameters.default, Res.bind_ok,
    ProcessDataLength_from_u16, OperatingMode_from_u16, BaudRate_from_u16, StopBit_from_u16,
    Parity_from_u16, FlowControl_from_u16, DataBits_from_u16, bool_eq]
  split
  · rfl
  rename_i h
  have h8 := idx_of_lt (l := data) (i := 8) (by omega)
  have h9 := idx_of_lt (l := data) (i := 9) (by omega)
  simp only [res_map_bind, Res.bind_assoc, codeParam, h8, h9, Res.bind_ok, Res.map_ok, ← char_eq,
    res_bind_map]
  binds
  rfl

theorem default_eq (oc : Bool) : (Mod.default oc).map Mod.conv = .ok Com.Mod.default := rfl

theorem cnt_eq (oc : Bool) (b : Byte) : cnt_from_status_byte oc b = .ok (Com.cntFromStatusByte b) := by
  simp only [cnt_from_status_byte, r_shr, Shift.shr]
  rw [if_neg (by omega)]
  rfl

theorem cnt_ack_eq (oc : Bool) (b : Byte) :
    cnt_ack_from_status_byte oc b = .ok (Com.cntAckFromStatusByte b) := by
  simp only [cnt_ack_from_status_byte, r_shr, Shift.shr]
  rw [if_neg (by omega)]
  rfl

theorem cnt_to_eq (oc : Bool) (n : Nat) (b : Byte) :
    cnt_to_status_byte oc n b = .ok (Com.cntToStatusByte n b) := by
  simp only [cnt_to_status_byte, r_shl, Shift.shl]
  rw [if_neg (by omega)]
  rfl

theorem cnt_ack_to_eq (oc : Bool) (n : Nat) (b : Byte) :
    cnt_ack_to_status_byte oc n b = .ok (Com.cntAckToStatusByte n b) := by
  simp only [cnt_ack_to_status_byte, r_shl, Shift.shl]
  rw [if_neg (by omega)]
  rfl

theorem user_data_len_eq (oc : Bool) (l : ProcessDataLength) :
    ProcessDataLength.user_data_len oc l = .ok l.userDataLen := by cases l <;> rfl

theorem slice_eq (bytes : List Byte) {n : Nat} (h : n + 2 ≤ bytes.length) :
    r_slice bytes 2 (n + 2) = .ok ((bytes.drop 2).take n) := by
  simp only [r_slice]
  rw [if_pos ⟨by omega, h⟩, List.drop_take]
  rfl

theorem in_from_bytes_eq (oc : Bool) (bytes : List Byte) :
    ProcessInput.try_from_byte_message oc bytes = Com.rsInFromBytes bytes := by
  simp only [ProcessInput.try_from_byte_message, Com.rsInFromBytes, Res.bind_eq, Res.pure_eq,
    guard_bind, index_eq, decide_eq_true_eq, add_nat, Res.bind_ok]
  split
  · rfl
  refine bind_congr' rfl fun s => bind_congr' rfl fun b => ?_
  have hb : (r_as b : Nat) = b.toNat := rfl
  rw [hb]
  split
  · rfl
  rename_i h
  simp only [slice_eq bytes (Nat.not_lt.1 h), cnt_eq, cnt_ack_eq, Res.bind_ok,
    test_bit_eq oc _ (by decide : 0 < 64), test_bit_eq oc _ (by decide : 1 < 64),
    test_bit_eq oc _ (by decide : 7 < 64)]

theorem out_from_bytes_eq (oc : Bool) (bytes : List Byte) :
    ProcessOutput.try_from_byte_message oc bytes = Com.rsOutFromBytes bytes := by
  simp only [ProcessOutput.try_from_byte_message, Com.rsOutFromBytes, Res.bind_eq, Res.pure_eq,
    guard_bind, index_eq, decide_eq_true_eq, add_nat, Res.bind_ok]
  split
  · rfl
  refine bind_congr' rfl fun s => bind_congr' rfl fun b => ?_
  have hb : (r_as b : Nat) = b.toNat := rfl
  rw [hb]
  split
  · rfl
  rename_i h
  simp only [slice_eq bytes (Nat.not_lt.1 h), cnt_eq, cnt_ack_eq, Res.bind_ok,
    test_bit_eq oc _ (by decide : 0 < 64), test_bit_eq oc _ (by decide : 1 < 64),
    test_bit_eq oc _ (by decide : 2 < 64), test_bit_eq oc _ (by decide : 7 < 64)]

theorem write_loop (oc : Bool) (ds : List Byte) : ∀ (i : Nat) (msg : List Byte),
    r_loop ((ds.zipIdx i).map fun p => (p.2, p.1)) msg (fun msg x =>
      (r_add oc 2 x.1).bind fun t => r_set msg t x.2) = Com.writeData i msg ds := by
  induction ds with
  | nil => intros; rfl
  | cons d ds ih =>
    intro i msg
    simp only [List.zipIdx_cons, List.map_cons, loop_cons, Com.writeData, Res.bind_eq, add_nat,
      Res.bind_ok, r_set] at ih ⊢
    split
    · exact ih (i + 1) _
    · rfl

theorem to_bytes_eq (oc : Bool) (o : RsOut) (l : ProcessDataLength) :
    ProcessOutput.try_into_byte_message oc o l = Com.rsOutToBytes o l := by
  simp only [ProcessOutput.try_into_byte_message, Com.rsOutToBytes, Res.bind_eq, Res.pure_eq,
    guard_bind, decide_eq_true_eq, add_nat, Res.bind_ok, user_data_len_eq, cnt_to_eq,
    cnt_ack_to_eq, set_bit_eq oc _ (by decide : 0 < 64), set_bit_eq oc _ (by decide : 1 < 64),
    set_bit_eq oc _ (by decide : 2 < 64), set_bit_eq oc _ (by decide : 7 < 64), enumerate_iter,
    collect_iter, res_bind_self]
  split
  · rfl
  split
  · rfl
  have hs : ∀ (c : Bool) (a b : Byte), (if c = true then Res.ok a else .ok b) = .ok (if c = true then a else b) := by
    intro c a b; cases c <;> rfl
  have hl := write_loop oc o.data 0
  simp only [hs, Res.bind_ok, add_nat] at hl ⊢
  cases l <;> exact hl _

theorem fold_eq (oc : Bool) (ws : List Word) : ∀ acc : List Byte,
    r_fold (r_iter ws) acc (fun x elem =>
      (r_shr oc elem 8).bind fun t1 =>
        Res.ok (x ++ [(r_as (elem &&& 255) : Byte)] ++ [(r_as t1 : Byte)])) =
      .ok (acc ++ u16ToU8 ws) := by
  induction ws with
  | nil => intro acc; simp [r_fold, u16ToU8]
  | cons w ws ih =>
    intro acc
    have h : r_shr oc w 8 = .ok (w >>> 8) := by
      simp only [r_shr, Shift.shr]
      rw [if_neg (by omega)]
    simp only [iter_cons, r_fold, Res.bind_ok, h]
    rw [ih]
    simp only [List.append_assoc]
    rfl

theorem values_eq (oc : Bool) (m : Mod) (vs : List ChannelValue) :
    Mod.process_output_values oc m vs = m.conv.processOutputValues vs := by
  match vs with
  | [] => rfl
  | [v] =>
    cases v <;> try rfl
    rename_i o
    simp only [Mod.process_output_values, Com.Mod.processOutputValues, Res.bind_eq, Res.pure_eq,
      guard_bind, index_eq, decide_eq_true_eq, Res.bind_ok, user_data_len_eq, to_bytes_eq,
      u8_to_u16_eq, idx_cons_zero, List.length_singleton, bne_self_eq_false, Bool.false_eq_true,
      if_false]
    rfl
  | v :: w :: vs =>
    simp only [Mod.process_output_values, Com.Mod.processOutputValues, Res.bind_eq, Res.pure_eq,
      guard_bind]
    rw [if_pos (by simp)]

theorem dyn_eq (oc : Bool) (m : Mod) : ToDyn.toDyn oc m = dynOf (.com m.conv) := by
  simp only [ToDyn.toDyn, dynOf, Dyn.mk.injEq]
  refine ⟨rfl, ?_, ?_, ?_, ?_, ?_⟩
  · simp only [Mod.process_input_byte_count, Module.inputByteCount, Mod.conv]
    cases m.modParams.processDataLen <;> rfl
  · simp only [Mod.process_output_byte_count, Module.outputByteCount, Mod.conv]
    cases m.modParams.processDataLen <;> rfl
  · funext data
    simp only [Mod.process_input_data, Res.bind_eq, Res.pure_eq, fold_eq, List.nil_append,
      Res.bind_ok, in_from_bytes_eq]
    rfl
  · funext data
    simp only [Mod.process_output_data, Res.bind_eq, Res.pure_eq, fold_eq, List.nil_append,
      Res.bind_ok, out_from_bytes_eq]
    rfl
  · funext vs; exact values_eq oc m vs

/-! ## The message processor -/

theorem new_eq (oc : Bool) (l : ProcessDataLength) :
    MessageProcessor.new oc l = .ok (Com.MessageProcessor.new l) := rfl

theorem inc_cnt_eq (oc : Bool) (n : Nat) : MessageProcessor.inc_cnt oc n = .ok (Com.incCnt n) := by
  simp only [MessageProcessor.inc_cnt, add_nat, Res.bind_eq, Res.pure_eq, Res.bind_ok, Com.incCnt,
    decide_eq_true_eq]
  split <;> rfl

theorem next_eq (oc : Bool) (p : Com.MessageProcessor) (i : RsIn) (o : RsOut) :
    MessageProcessor.next oc p i o = .ok (p.next i o) := by
  rcases p with ⟨s, rx, ind, outd, len⟩
  simp only [MessageProcessor.next, Res.bind_eq, Res.pure_eq, Res.bind_ok, inc_cnt_eq, index_eq]
  cases s
  · rfl
  · rfl
  simp only [Com.MessageProcessor.next, Com.MessageProcessor.nextTx, beq_self_eq_true, if_true]
  cases outd with
  | nil =>
    simp only [List.isEmpty_nil, Bool.not_true, Bool.false_eq_true, if_false, Res.bind_ok,
      Com.MessageProcessor.nextRx]
    split <;> rfl
  | cons c cs =>
    simp only [List.isEmpty_cons, Bool.not_false, if_true, Res.bind_ok, idx_cons_zero,
      Com.MessageProcessor.nextRx, bne_iff_ne]
    by_cases h : Com.incCnt i.txCntAck = o.txCnt
    · simp only [h, ne_eq, not_true_eq_false, if_false, Res.bind_ok]
      split <;> rfl
    · simp only [h, ne_eq, not_false_eq_true, if_true, Res.bind_ok]
      split <;> rfl

theorem read_loop (n : Nat) : ∀ (pre buf d : List Byte) (p : Com.MessageProcessor), p.inData = d →
    n ≤ buf.length →
    r_loop (List.range' pre.length n) (p, pre ++ buf)
      (fun (x : Com.MessageProcessor × List Byte) (i : Nat) =>
        (idx x.2 i).bind fun _ => (idx x.1.inData 0).bind fun t2 =>
          (r_set x.2 i t2).bind fun buf =>
            Res.ok ({ x.1 with inData := (x.1.inData).eraseIdx 0 }, buf)) =
      (ImpCom.readLoop n buf d).bind fun r => .ok ({ p with inData := r.2 }, pre ++ r.1) := by
  induction n with
  | zero =>
    intro pre buf d p hp _
    simp only [List.range'_zero, loop_nil, ImpCom.readLoop, Res.bind_ok, Res.pure_eq]
    cases p; cases hp; rfl
  | succ n ih =>
    intro pre buf d p hp hn
    cases buf with
    | nil => simp at hn
    | cons b buf =>
      simp only [List.range'_succ, loop_cons, Res.bind_eq]
      have h1 : idx (pre ++ b :: buf) pre.length = .ok b := by
        rw [idx_of_lt (by simp)]; simp
      cases d with
      | nil =>
        simp only [h1, hp, Res.bind_ok, ImpCom.readLoop, idx_nil, Res.bind_panic]
      | cons c d =>
        have h2 : r_set (pre ++ b :: buf) pre.length c = .ok ((pre ++ [c]) ++ buf) := by
          simp [r_set]
        simp only [h1, hp, Res.bind_ok, idx_cons_zero, h2, List.eraseIdx_zero, List.tail_cons,
          ImpCom.readLoop, Res.bind_assoc]
        have := ih (pre ++ [c]) buf d { p with inData := d } rfl (by simpa using hn)
        simp only [List.length_append, List.length_singleton, List.eraseIdx_zero] at this
        rw [this]
        simp only [List.append_assoc, List.singleton_append]

theorem read_eq (oc : Bool) (p : Com.MessageProcessor) (buf : List Byte) :
    MessageProcessor.read oc p buf = ImpCom.read p buf := by
  simp only [MessageProcessor.read, ImpCom.read, Res.bind_eq, Res.pure_eq, index_eq, range_eq,
    collect_iter, Res.bind_ok]
  split
  · rfl
  have := read_loop (min buf.length p.inData.length) [] buf p.inData p rfl (Nat.min_le_left ..)
  simp only [List.nil_append, List.length_nil, ← List.range_eq_range'] at this
  rw [this]
  simp only [Res.bind_assoc, Res.bind_ok]

theorem chunks_from (n : Nat) : ∀ (fuel : Nat) (l : List Byte),
    chunksFrom n fuel l = Com.chunksAux n fuel l := by
  intro fuel
  induction fuel with
  | zero => intro l; rfl
  | succ f ih => intro l; simp only [chunksFrom, Com.chunksAux, ih]

theorem write_chunks (cs : List (List Byte)) : ∀ p : Com.MessageProcessor,
    r_loop (m := Res) cs p (fun p c => .ok { p with outData := p.outData ++ [c] }) =
      .ok { p with outData := p.outData ++ cs } := by
  induction cs with
  | nil => intro p; simp
  | cons c cs ih =>
    intro p
    simp only [loop_cons, Res.bind_eq, Res.bind_ok, ih, List.append_assoc, List.singleton_append]

theorem write_eq (oc : Bool) (p : Com.MessageProcessor) (buf : List Byte) :
    MessageProcessor.write oc p buf = .ok (p.write buf) := by
  simp only [MessageProcessor.write, Com.MessageProcessor.write, Res.bind_eq, Res.pure_eq,
    user_data_len_eq, Res.bind_ok, r_chunks, to_vec_eq]
  rw [if_neg (by cases p.processDataLen <;> decide), chunks_from]
  simp only [Res.bind_ok, write_chunks, Com.chunks]

end Ur20.Src.ur20_1com_232_485_422
