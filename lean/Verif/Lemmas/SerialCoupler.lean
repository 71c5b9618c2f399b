import Verif.Props.Image
import Verif.Lemmas.Coupler
import Verif.Props.Serial
import Verif.Spec.SerialImage

/-! The serial modules of a coupler in a cycle. -/

namespace Ur20

open Spec Com Coupler

theorem filterMap_range (bytes : List Byte) (n : Nat) :
    (List.range n).filterMap (fun k => bytes[k]?) = bytes.take n := by
  induction n with
  | zero => rfl
  | succ n ih =>
    rw [List.range_succ, List.filterMap_append, ih, List.take_add_one]
    congr 1

theorem bytesAt_eq {img : List Word} {p n : Nat} {bytes : List Byte} (hl : bytes.length = n)
    (h : ∀ k, k < n → byteAt img (p + k) = bytes[k]?) : bytesAt img p n = bytes := by
  have : bytesAt img p n = (List.range n).filterMap fun k => bytes[k]? := by
    unfold bytesAt
    apply List.filterMap_congr
    intro k hk
    exact h k (List.mem_range.1 hk)
  rw [this, filterMap_range, ← hl, List.take_length]

theorem byteCount_even (len : ProcessDataLength) : 2 * rawWords len.byteCount = len.byteCount := by
  cases len <;> rfl

/-- The bytes a serial module is given. -/
theorem serial_raw {oc : Bool} {off addr : Word} {len : ProcessDataLength} {data raw : List Word}
    (h : prepareRawDataToProcess oc off addr len.byteCount data = .ok raw)
    (ha : addr.toNat * 16 ≤ off.toNat) (h0 : off.toNat % 16 = 0) :
    bytesAt data ((off.toNat - addr.toNat * 16) / 8) len.byteCount = u16ToU8 raw := by
  have hl := (prepareRaw_ok h).1
  have he := byteCount_even len
  apply bytesAt_eq
  · rw [u16ToU8_length, hl]; omega
  · intro k hk
    rw [← byteAt_eq, prepareRaw_bytes h ha k (by omega)]

theorem serial_input {oc : Bool} {pi : List Word} {cm : Com.Mod} {oi : Word} {out : Option Word}
    {vs : List ChannelValue} (h : moduleInput oc pi (.com cm) ⟨some oi, out⟩ = .ok vs)
    (h0 : oi.toNat % 16 = 0) :
    ∃ i, vs = [.comRsIn i] ∧ inFrame cm.processDataLen oi pi = some i := by
  unfold moduleInput at h
  simp only [Res.bind_eq, Res.bind_eq_ok] at h
  obtain ⟨raw, h1, h2⟩ := h
  have hb := serial_raw (len := cm.processDataLen) h1
    (by simp [addrPackedProcessInputData]) h0
  simp only [Module.processInputData, Com.Mod.processInputData, Res.bind_eq, Res.bind_eq_ok,
    Res.pure_eq, Res.ok.injEq] at h2
  obtain ⟨i, h3, h4⟩ := h2
  refine ⟨i, h4.symm, ?_⟩
  unfold inFrame
  have ha : addrPackedProcessInputData.toNat * 16 = 0 := by decide
  rw [ha, Nat.sub_zero] at hb
  rw [hb, h3]

theorem serial_output {oc : Bool} {po : List Word} {cm : Com.Mod} {oo : Word} {inp : Option Word}
    {vs : List ChannelValue} (h : moduleOutput oc po (.com cm) ⟨inp, some oo⟩ = .ok vs)
    (h0 : oo.toNat % 16 = 0) (hbase : outputBase ≤ oo.toNat) :
    ∃ o, vs = [.comRsOut o] ∧ outFrame cm.processDataLen oo po = some o := by
  unfold moduleOutput at h
  simp only [Res.bind_eq, Res.bind_eq_ok] at h
  obtain ⟨raw, h1, h2⟩ := h
  have ha : addrPackedProcessOutputData.toNat * 16 = outputBase := by decide
  have hb := serial_raw (len := cm.processDataLen) h1 (by rw [ha]; exact hbase) h0
  simp only [Module.processOutputData, Com.Mod.processOutputData, Res.bind_eq, Res.bind_eq_ok,
    Res.pure_eq, Res.ok.injEq] at h2
  obtain ⟨o, h3, h4⟩ := h2
  refine ⟨o, h4.symm, ?_⟩
  unfold outFrame
  rw [ha] at hb
  unfold outByte
  rw [hb, h3]

/-- The frame in an image that was encoded. -/
theorem serial_image {inf : List (Module × ModuleOffset)} {vals : List (List ChannelValue)}
    {img : List Word} (h : processOutputValues inf vals = .ok img) {j : Nat} (hdis : BytesKept inf j)
    {cm : Com.Mod} {inp : Option Word} {oo : Word}
    (hj : inf[j]? = some (.com cm, ⟨inp, some oo⟩)) (h0 : oo.toNat % 16 = 0) {o : RsOut}
    (hv : vals[j]? = some [.comRsOut o]) : outFrame cm.processDataLen oo img = some o := by
  obtain ⟨vs, d, h1, h2, h3, h4, h5⟩ := C41_own_bytes inf vals img h j hdis _ _ oo hj rfl
  rw [hv] at h1
  cases h1
  simp only [Module.processOutputValues, Com.Mod.processOutputValues] at h2
  split at h2
  · cases h2
  · simp only [Res.bind_eq, Res.bind_eq_ok, Res.pure_eq, Res.ok.injEq] at h2
    obtain ⟨bytes, h6, h7⟩ := h2
    obtain ⟨hc1, hc2, hc3⟩ := (C20_errors o cm.processDataLen).2.2.1 ⟨_, h6⟩
    obtain ⟨b', g1, g2, g3⟩ := C19_round_trip o cm.processDataLen (by omega) (by omega) hc3
    rw [h6] at g1
    cases g1
    have hbc : capacity cm.processDataLen + 2 = cm.processDataLen.byteCount := by
      cases cm.processDataLen <;> rfl
    have hev : bytes.length % 2 = 0 := by
      rw [g2, hbc]; cases cm.processDataLen <;> rfl
    have : bytesAt img (outByte oo) cm.processDataLen.byteCount = bytes := by
      apply bytesAt_eq
      · rw [g2, hbc]
      · intro k hk
        rw [h5 k hk (by omega), ← h7, byteAt_eq, u16ToU8_u8ToU16 _ hev]
    unfold outFrame
    rw [this, g3]

/-- A serial module in a successful cycle. -/
theorem serial_cycle {oc : Bool} {c c' : Coupler} (hi : c.Inv) {j : Nat} {len : ProcessDataLength}
    {oi oo : Word} (hs : SerialAt c j len oi oo) {pi po img : List Word}
    (h : c.next oc pi po = (c', .ok img)) :
    ∃ p i o lt, c.processors j = some p ∧ inFrame len oi pi = some i ∧
      outFrame len oo po = some o ∧ c'.inputs[j]? = some [shownIn i] ∧
      c'.outputs[j]? = some [shownOut o lt] ∧
      ((∀ k, k < j → c.processors k = none) → lt = c.lastTxCnt) ∧
      c'.processors j = some ((feed p (c.write ⟨j, 0⟩)).next i o).1 ∧
      c'.write ⟨j, 0⟩ = none ∧
      (BytesKept (infos c) j →
        outFrame len oo img = some ((feed p (c.write ⟨j, 0⟩)).next i o).2) := by
  obtain ⟨cm, hm, rfl, h1, h2, h3⟩ := hs
  obtain ⟨inV, outV, st1, r, vals, a1, a2, ⟨lt, a3, a4⟩, a5, a6, a7, a8, a9, a10⟩ :=
    next_module h hm
  obtain ⟨p, hp⟩ := hi.com j cm hm.1
  obtain ⟨i, rfl, hii⟩ := serial_input a1 h1
  obtain ⟨o, rfl, hoo⟩ := serial_output a2 h2 h3
  rw [moduleStep_serial (p := p) (by exact hp)] at a3
  cases a3
  refine ⟨p, i, o, lt, hp, hii, hoo, a5, a6, a4, by rw [a8]; simp, ?_, fun hd => ?_⟩
  · rw [a7 _ rfl]; simp [remove]
  · exact serial_image a10 hd (infos_getElem? hm) h2 a9

theorem Spec.SerialAt.congr {c c' : Coupler} (h1 : c'.modules = c.modules) (h2 : c'.offsets = c.offsets)
    {j : Nat} {len : ProcessDataLength} {oi oo : Word} (h : SerialAt c j len oi oo) :
    SerialAt c' j len oi oo := by
  obtain ⟨cm, hm, h⟩ := h
  exact ⟨cm, by unfold ModuleAt; rw [h1, h2]; exact hm, h⟩

theorem txLoop_single {procs : Nat → Option MessageProcessor} (k j lt : Nat)
    (l : List (List ChannelValue × List ChannelValue)) {p : List ChannelValue × List ChannelValue}
    (h : ∀ n, n ≠ k + j → procs n = none) (hj : l[j]? = some p) :
    txLoop procs k lt l = txAfter (procs (k + j)) lt p.1 p.2 := by
  induction l generalizing k j lt with
  | nil => simp at hj
  | cons q l ih =>
    simp only [txLoop]
    cases j with
    | zero =>
      simp only [List.getElem?_cons_zero, Option.some.injEq] at hj
      subst hj
      rw [txLoop_none _ _ _ fun i _ => h _ (by omega)]
      rfl
    | succ j =>
      rw [List.getElem?_cons_succ] at hj
      rw [ih (k + 1) j _ (fun n hn => h n (by omega)) hj, h k (by omega),
        show k + 1 + j = k + (j + 1) by omega]
      rfl

/-- The segment number remembered after a cycle of a coupler with one serial module. -/
theorem serial_lastTxCnt {oc : Bool} {c c' : Coupler} (hi : c.Inv) {j : Nat}
    {len : ProcessDataLength} {oi oo : Word} (hs : SerialAt c j len oi oo) (ho : OnlySerial c j)
    {pi po img : List Word} (h : c.next oc pi po = (c', .ok img)) {o : RsOut}
    (hf : outFrame len oo po = some o) : c'.lastTxCnt = o.txCnt := by
  obtain ⟨cm, hm, rfl, h1, h2, h3⟩ := hs
  obtain ⟨ins, outs, st, rs, b1, b2, b3, rfl, b5⟩ := next_ok h
  obtain ⟨inV, hi1, hi2⟩ := mapRes_getElem? b1 (infos_getElem? hm)
  obtain ⟨outV, ho1, ho2⟩ := mapRes_getElem? b2 (infos_getElem? hm)
  obtain ⟨i, rfl, hii⟩ := serial_input hi2 h1
  obtain ⟨o', rfl, hoo⟩ := serial_output ho2 h2 h3
  rw [hf] at hoo
  cases hoo
  obtain ⟨p, hp⟩ := hi.com j cm hm.1
  have := (cycleLoop_spec b3).2.2.2.1
  simp only [after]
  rw [this, txLoop_single 0 j _ _ (p := ([.comRsIn i], [.comRsOut o])) ?_ ?_]
  · rw [Nat.zero_add]
    simp only [hp]
    rfl
  · intro n hn
    cases hpn : c.processors n with
    | none => simp only [hpn]
    | some q =>
      obtain ⟨cm', hcm, -⟩ := hi.proc n q hpn
      have := ho n _ hcm ⟨cm', rfl⟩
      omega
  · rw [List.getElem?_zip_eq_some]; exact ⟨hi1, ho1⟩

theorem Spec.OnlySerial.congr {c c' : Coupler} (h1 : c'.modules = c.modules) {j : Nat}
    (h : OnlySerial c j) : OnlySerial c' j := by
  unfold OnlySerial; rw [h1]; exact h

/-- Calls other than cycles do not change the remembered segment number. -/
theorem apply_lastTxCnt (oc : Bool) (c : Coupler) (op : COp) (h : op.IsCall) :
    (op.apply oc c).lastTxCnt = c.lastTxCnt := by
  cases op with
  | setOutput a v => simp only [COp.apply, setOutput]; split <;> rfl
  | next i o => exact h.elim
  | read n len =>
    simp only [COp.apply, Coupler.read]
    cases hp : c.processors n with
    | none => rfl
    | some p => simp only [read_ok, Res.bind_ok]; rfl
  | write n buf =>
    simp only [COp.apply, writeBytes]
    cases hp : c.processors n with
    | none => rfl
    | some p => rfl

/-- Channel 0 of a serial module exists. -/
theorem Spec.SerialAt.valid {c : Coupler} {j : Nat} {len : ProcessDataLength} {oi oo : Word}
    (h : SerialAt c j len oi oo) : c.isValidAddr ⟨j, 0⟩ = true := by
  obtain ⟨cm, hm, -⟩ := h
  unfold isValidAddr
  simp only [hm.1]
  rfl

end Ur20
