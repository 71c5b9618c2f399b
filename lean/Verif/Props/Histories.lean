import Verif.Spec.Histories
import Verif.Props.Failure

/-! # Histories with failing cycles: C79, C80 -/

namespace Ur20

open Spec Com Coupler

/-! ### Cycles that can be decoded -/

theorem decodable_ok {oc : Bool} {cfg : CouplerConfig} {c : Coupler}
    (hr : ReachableFrom oc cfg c) {pi po : List Word}
    (hd : Decodable cfg pi po) :
    ∃ ins outs, processInputData oc (infos c) pi = .ok ins ∧
      processOutputData oc (infos c) po = .ok outs := by
  obtain ⟨ins, h1⟩ := (decode_inputs hr pi).2 hd.1
  obtain ⟨outs, h2⟩ : ∃ outs, processOutputData oc (infos c) po = .ok outs := by
    unfold processOutputData
    rw [mapRes_ok_iff]
    rintro ⟨m, off⟩ he
    obtain ⟨j, hj⟩ := List.mem_iff_getElem?.1 he
    obtain ⟨t, par, o, i, hcfg, hc, rfl⟩ := reachable_at hr (infos_at.1 hj)
    simp only
    cases ho : wordToOffset o with
    | none => exact ⟨_, rfl⟩
    | some v =>
      obtain ⟨hno, rfl⟩ := wordToOffset_some.1 ho
      obtain ⟨g1, g2⟩ := hd.2 j t par v i hcfg hno
      exact (moduleOutput_iff hc g1).2 g2
  exact ⟨ins, outs, h1, h2⟩

theorem frameLength_eq {par : List Word} {cm : Com.Mod}
    (h : Module.create .UR20_1COM_232_485_422 par = .ok (.com cm)) :
    cm.processDataLen = frameLength par := by
  have := (create_bytes h).1
  simp only [inputBytes] at this
  unfold frameLength
  change cm.processDataLen.byteCount = _ at this
  cases hl : cm.processDataLen <;> rw [hl] at this <;> split at this <;> simp_all [ProcessDataLength.byteCount]

/-- What a cycle that can be decoded does with the segment number. -/
theorem txAfter_frame {oc : Bool} {cfg : CouplerConfig} {c : Coupler}
    (hr : ReachableFrom oc cfg c) {pi po : List Word}
    (hd : Decodable cfg pi po) {k : Nat} {m : Module} {off : ModuleOffset}
    (hm : ModuleAt c k m off) {inV outV : List ChannelValue}
    (h1 : moduleInput oc pi m off = .ok inV) (h2 : moduleOutput oc po m off = .ok outV) (lt : Nat) :
    txAfter (c.processors k) lt inV outV =
      match serialCount cfg po k with
      | some n => n
      | none => lt := by
  have hi := inv_of_reachable hr
  obtain ⟨t, par, o, i, hcfg, hc, rfl⟩ := reachable_at hr hm
  obtain ⟨q1, q2, q3, q4⟩ := hcfg
  by_cases hs : IsSerial m
  · obtain ⟨cm, rfl⟩ := hs
    have ht := (isSerial_type hc).1 ⟨cm, rfl⟩
    subst ht
    obtain ⟨p, hp⟩ := hi.com _ _ hm.1
    rw [hp]
    by_cases hdt : o ≠ noOffset ∧ i ≠ noOffset
    · rw [wordToOffset_some.2 ⟨hdt.1, rfl⟩, wordToOffset_some.2 ⟨hdt.2, rfl⟩] at h1 h2
      obtain ⟨f, rfl, -⟩ := serial_input_any h1
      obtain ⟨g, rfl, -, -, -, hg⟩ := serial_output_any h2
      obtain ⟨b, hb, hg⟩ := hg (hd.2 _ _ _ _ _ ⟨q1, q2, q3, q4⟩ hdt.1).1
      simp only [serialCount, q1, q3, q4]
      rw [if_pos hdt, hb]
      exact hg
    · simp only [serialCount, q1, q3, q4]
      rw [if_neg hdt]
      have hn : serialFrames inV outV = none := by
        by_cases ho : o = noOffset
        · subst ho
          rw [show wordToOffset noOffset = none from rfl] at h2
          cases h2
          cases inV with
          | nil => rfl
          | cons v l => cases v <;> rfl
        · obtain rfl : i = noOffset := by
            by_contra h
            exact hdt ⟨ho, h⟩
          rw [show wordToOffset noOffset = none from rfl] at h1
          cases h1
          rfl
      unfold txAfter
      rw [hn]
  · rw [hi.none hm.1 hs]
    have : serialCount cfg po k = none := by
      unfold serialCount
      rw [q1, q3, q4]
      split
      · rename_i h _ _
        cases h
        exact absurd ((isSerial_type hc).2 rfl) hs
      · rfl
    rw [this]
    rfl

theorem txLoop_append (procs : Nat → Option MessageProcessor) (k lt : Nat)
    (l : List (List ChannelValue × List ChannelValue)) (p : List ChannelValue × List ChannelValue) :
    txLoop procs k lt (l ++ [p]) =
      txAfter (procs (k + l.length)) (txLoop procs k lt l) p.1 p.2 := by
  induction l generalizing k lt with
  | nil => rfl
  | cons q l ih =>
    simp only [List.cons_append, txLoop, ih, List.length_cons]
    rw [show k + 1 + l.length = k + (l.length + 1) by omega]

theorem txLoop_count {oc : Bool} {cfg : CouplerConfig} {c : Coupler}
    (hr : ReachableFrom oc cfg c) {pi po : List Word}
    (hd : Decodable cfg pi po) {ins outs : List (List ChannelValue)}
    (h1 : processInputData oc (infos c) pi = .ok ins)
    (h2 : processOutputData oc (infos c) po = .ok outs) (k : Nat) (hk : k ≤ (infos c).length) :
    txLoop c.processors 0 c.lastTxCnt ((ins.zip outs).take k) =
      countBefore cfg po c.lastTxCnt k := by
  have hl1 : ins.length = (infos c).length := mapRes_length h1
  have hl2 : outs.length = (infos c).length := mapRes_length h2
  induction k with
  | zero => rfl
  | succ k ih =>
    have hlt : k < (infos c).length := by omega
    have hat : (infos c)[k]? = some ((infos c)[k]) := List.getElem?_eq_getElem hlt
    obtain ⟨inV, hi1, hi2⟩ := mapRes_getElem? h1 hat
    obtain ⟨outV, ho1, ho2⟩ := mapRes_getElem? h2 hat
    have hz : (ins.zip outs)[k]? = some (inV, outV) := by
      rw [List.getElem?_zip_eq_some]; exact ⟨hi1, ho1⟩
    have htake : (ins.zip outs).take (k + 1) = (ins.zip outs).take k ++ [(inV, outV)] := by
      rw [List.take_add_one, hz]; rfl
    rw [htake, txLoop_append, ih (by omega)]
    have hlen : ((ins.zip outs).take k).length = k := by
      rw [List.length_take, List.length_zip]; omega
    rw [hlen, Nat.zero_add]
    have hm : ModuleAt c k ((infos c)[k]).1 ((infos c)[k]).2 := infos_at.1 hat
    rw [txAfter_frame hr hd hm hi2 ho2]
    rfl

theorem infos_length {oc : Bool} {cfg : CouplerConfig} {c : Coupler}
    (hr : ReachableFrom oc cfg c) : (infos c).length = cfg.modules.length := by
  have hi := inv_of_reachable hr
  unfold infos
  rw [List.length_zip, hi.len, (reachable_module hr).1, Nat.min_self]

/-- A serial module with both offsets in a cycle that can be decoded. -/
theorem decoded_serial {oc : Bool} {cfg : CouplerConfig} {c : Coupler}
    (hr : ReachableFrom oc cfg c) {pi po : List Word}
    (hd : Decodable cfg pi po) {j : Nat} {len : ProcessDataLength} {oi oo : Word}
    (hs : SerialAt c j len oi oo) :
    ∃ p i o, c.processors j = some p ∧ inFrame len oi pi = some i ∧
      outFrame len oo po = some o ∧ (c.next oc pi po).1.inputs[j]? = some [shownIn i] ∧
      (c.next oc pi po).1.outputs[j]? =
        some [shownOut o (countBefore cfg po c.lastTxCnt j)] ∧
      (c.next oc pi po).1.processors j = some ((feed p (c.write ⟨j, 0⟩)).next i o).1 ∧
      (c.next oc pi po).1.write ⟨j, 0⟩ = none := by
  have hi := inv_of_reachable hr
  obtain ⟨cm, hm, rfl, g1, g2, g3⟩ := hs
  obtain ⟨ins, outs, h1, h2⟩ := decodable_ok hr hd
  obtain ⟨st, rs, h3⟩ := hi.cycle_ok h1 h2
  obtain ⟨inV, hi1, hi2⟩ := mapRes_getElem? h1 (infos_getElem? hm)
  obtain ⟨outV, ho1, ho2⟩ := mapRes_getElem? h2 (infos_getElem? hm)
  obtain ⟨p, hp⟩ := hi.com j cm hm.1
  obtain ⟨i, rfl, hii⟩ := serial_input hi2 g1
  obtain ⟨o, rfl, hoo⟩ := serial_output ho2 g2 g3
  obtain ⟨h6, h7, h8, h9, h10⟩ := cycleLoop_spec h3
  obtain ⟨st1, r, hrs, hstep, hw, hpr⟩ := h10 j _ _ (by
    rw [List.getElem?_zip_eq_some]; exact ⟨hi1, ho1⟩)
  rw [Nat.zero_add] at hstep hw hpr
  have hlt : j < (infos c).length := (List.getElem?_eq_some_iff.1 (infos_getElem? hm)).1
  simp only [txLoop_count hr hd h1 h2 j (by omega)] at hstep
  rw [moduleStep_serial (p := p) (by exact hp)] at hstep
  cases hstep
  generalize hn : c.next oc pi po = x
  obtain ⟨c', r'⟩ := x
  simp only [(Coupler.next_done h1 h2 h3 hn).1]
  refine ⟨p, i, o, hp, hii, hoo, by simp [inputs, after, hrs], by simp [outputs, after, hrs],
    ?_, ?_⟩
  · simp only [after]; rw [hpr]; simp
  · simp only [after]; rw [hw _ rfl]; simp [remove]

theorem decoded_count {oc : Bool} {cfg : CouplerConfig} {c : Coupler}
    (hr : ReachableFrom oc cfg c) {pi po : List Word}
    (hd : Decodable cfg pi po) :
    (c.next oc pi po).1.lastTxCnt = countBefore cfg po c.lastTxCnt cfg.modules.length := by
  have hi := inv_of_reachable hr
  obtain ⟨ins, outs, h1, h2⟩ := decodable_ok hr hd
  obtain ⟨st, rs, h3⟩ := hi.cycle_ok h1 h2
  obtain ⟨h6, h7, h8, h9, h10⟩ := cycleLoop_spec h3
  generalize hn : c.next oc pi po = x
  obtain ⟨c', r'⟩ := x
  simp only [(Coupler.next_done h1 h2 h3 hn).1, after]
  rw [h9, ← infos_length hr, ← txLoop_count hr hd h1 h2 _ (Nat.le_refl _), List.take_of_length_le]
  rw [List.length_zip, mapRes_length h1, mapRes_length h2, Nat.min_self]

/-! ### Whole histories -/

theorem reachable_run {oc : Bool} {cfg : CouplerConfig} {c : Coupler}
    (hr : ReachableFrom oc cfg c) (ops : List COp) : ReachableFrom oc cfg (runC oc c ops) := by
  obtain ⟨c0, ops0, h0, rfl⟩ := hr
  exact ⟨c0, ops0 ++ ops, h0, by simp [runC, List.foldl_append]⟩

/-- Up to what `inputs()` shows, a history and the history of its decodable cycles lead to the same
state. -/
theorem run_decodedOnly {oc : Bool} {cfg : CouplerConfig}
    (ops : List COp) {c : Coupler} (hr : ReachableFrom oc cfg c) (hsz : ImagesSmall oc ops) :
    ∃ ins, runC oc c ops = { runC oc c (decodedOnly cfg ops) with inValues := ins } := by
  induction ops generalizing c with
  | nil => exact ⟨c.inValues, rfl⟩
  | cons op ops ih =>
    have hr' : ReachableFrom oc cfg (op.apply oc c) := reachable_run hr [op]
    have hsz' : ImagesSmall oc ops := fun pi po h => hsz pi po (List.mem_cons_of_mem _ h)
    obtain ⟨ins, h⟩ := ih hr' hsz'
    change ∃ ins, runC oc (op.apply oc c) ops = _
    cases op with
    | next pi po =>
      simp only [decodedOnly]
      split
      · exact ⟨ins, h⟩
      · rename_i hd
        have hd' := hd
        unfold Decodable at hd'
        rw [← decode_inputs hr, ← decode_outputs hr (hsz pi po List.mem_cons_self)] at hd'
        obtain ⟨-, ins1, h2, -⟩ := not_decoded hd'
        obtain ⟨ins2, h3⟩ := run_inValues oc c ins1 (decodedOnly cfg ops)
        refine ⟨ins, ?_⟩
        rw [h]
        simp only [COp.apply]
        rw [h2, h3]
    | setOutput a v => exact ⟨ins, h⟩
    | read n k => exact ⟨ins, h⟩
    | write n b => exact ⟨ins, h⟩

/-- C79: the cycles whose images cannot be decoded can be removed from a history: later cycles
return, `outputs()` shows and readers deliver the same. -/
theorem C79_decoded_only (oc : Bool) (cfg : CouplerConfig) (c0 : Coupler)
    (h0 : Coupler.new cfg = .ok c0) (ops : List COp)
    (hsz : ImagesSmall oc ops) :
    (runC oc c0 ops).outputs = (runC oc c0 (decodedOnly cfg ops)).outputs ∧
    (∀ pi po, ((runC oc c0 ops).next oc pi po).2 =
      ((runC oc c0 (decodedOnly cfg ops)).next oc pi po).2) ∧
    ∀ n len bytes, (∃ d, (runC oc c0 ops).read n len = .ok (d, bytes)) ↔
      ∃ d, (runC oc c0 (decodedOnly cfg ops)).read n len = .ok (d, bytes) := by
  obtain ⟨ins, h⟩ := run_decodedOnly (c := c0) ops ⟨c0, [], h0, rfl⟩ hsz
  rw [h]
  refine ⟨rfl, fun pi' po' => (next_inValues _ _ _ _ _).1, fun n len bytes => ?_⟩
  simp only [Coupler.read]
  cases (runC oc c0 (decodedOnly cfg ops)).processors n with
  | none => simp
  | some p =>
    simp only
    cases p.read len <;> simp [Res.bind]

theorem decodedOnly_mem {cfg : CouplerConfig} {ops : List COp} {pi po : List Word}
    (h : COp.next pi po ∈ decodedOnly cfg ops) : Decodable cfg pi po := by
  induction ops with
  | nil => cases h
  | cons op ops ih =>
    cases op with
    | next pi' po' =>
      simp only [decodedOnly] at h
      split at h
      · rename_i hd
        rcases List.mem_cons.1 h with h | h
        · cases h; exact hd
        · exact ih h
      · exact ih h
    | setOutput a v => rcases List.mem_cons.1 h with h | h; cases h; exact ih h
    | read n k => rcases List.mem_cons.1 h with h | h; cases h; exact ih h
    | write n b => rcases List.mem_cons.1 h with h | h; cases h; exact ih h

theorem own_calls {oc : Bool} {cfg : CouplerConfig} {j : Nat}
    {len : ProcessDataLength} {oi oo : Word} (ops : List COp) :
    ∀ (c : Coupler) (p : MessageProcessor), ReachableFrom oc cfg c → SerialAt c j len oi oo →
      c.processors j = some p → (∀ pi po, COp.next pi po ∈ ops → Decodable cfg pi po) →
      (runC oc c ops).processors j = some (runOps p
        (serialCalls j (inFrame len oi) (outFrame len oo) (c.write ⟨j, 0⟩) ops)) ∧
      (runC oc c ops).write ⟨j, 0⟩ = pendingAfter j (c.write ⟨j, 0⟩) ops := by
  induction ops with
  | nil => intro c p _ _ hp _; exact ⟨hp, rfl⟩
  | cons op ops ih =>
    intro c p hr hs hp hc
    have hstc := apply_static oc c op
    have ih' := fun p' hp' => ih (op.apply oc c) p' (reachable_run hr [op])
      (hs.congr hstc.1 hstc.2) hp' (fun pi po h => hc pi po (List.mem_cons_of_mem _ h))
    rw [show runC oc c (op :: ops) = runC oc (op.apply oc c) ops from rfl]
    cases op with
    | setOutput a v =>
      simp only [COp.apply, serialCalls, pendingAfter] at ih' ⊢
      have e1 : (c.setOutput a v).1.processors j = some p := by
        unfold setOutput; split <;> exact hp
      have e2 : (c.setOutput a v).1.write ⟨j, 0⟩ =
          if a = ⟨j, 0⟩ then some v else c.write ⟨j, 0⟩ := by
        unfold setOutput
        split
        · rename_i hva
          rw [if_neg]
          rintro rfl
          rw [hs.valid] at hva
          cases hva
        · simp only [Coupler.insert, eq_comm]
      have := ih' p e1
      rw [e2] at this
      exact this
    | next pi po =>
      obtain ⟨p', i, o, g1, g2, g3, -, -, g7, g8⟩ :=
        decoded_serial hr (hc pi po List.mem_cons_self) hs
      rw [hp] at g1
      cases g1
      simp only [COp.apply, serialCalls, pendingAfter, g2, g3] at ih' ⊢
      have := ih' _ g7
      rw [g8] at this
      rw [this.1, this.2]
      refine ⟨?_, rfl⟩
      congr 1
      cases hw : c.write ⟨j, 0⟩ with
      | none => rfl
      | some v => cases v <;> rfl
    | read n k =>
      simp only [COp.apply, serialCalls, pendingAfter, Coupler.read] at ih' ⊢
      by_cases hn : n = j
      · subst hn
        simp only [hp, read_ok, Res.bind_ok, if_true] at ih' ⊢
        have := ih' { p with inData := p.inData.drop k } (by simp [setProcessor])
        simp only [setProcessor] at this ⊢
        rw [this.1, this.2]
        refine ⟨?_, rfl⟩
        simp [runOps, Op.apply, read_ok]
      · rw [if_neg hn]
        cases hpn : c.processors n with
        | none => simp only [hpn] at ih' ⊢; exact ih' p hp
        | some q =>
          simp only [hpn, read_ok, Res.bind_ok] at ih' ⊢
          exact ih' p (by simp [setProcessor, hp, Ne.symm hn])
    | write n b =>
      simp only [COp.apply, serialCalls, pendingAfter, writeBytes] at ih' ⊢
      by_cases hn : n = j
      · subst hn
        simp only [hp, if_true] at ih' ⊢
        have := ih' (p.write b).1 (by simp [setProcessor])
        simp only [setProcessor] at this ⊢
        rw [this.1, this.2]
        exact ⟨rfl, rfl⟩
      · rw [if_neg hn]
        cases hpn : c.processors n with
        | none => simp only [hpn] at ih' ⊢; exact ih' p hp
        | some q =>
          simp only [hpn] at ih' ⊢
          exact ih' p (by simp [setProcessor, hp, Ne.symm hn])

/-- C79: whatever cycles fail, a serial module behaves like a processor of its own that sees the
calls that concern the module and the frames of the cycles whose images can be decoded, also of
those that then fail to encode. -/
theorem C79_serial (oc : Bool) (cfg : CouplerConfig) (c0 : Coupler)
    (h0 : Coupler.new cfg = .ok c0) (j : Nat)
    (len : ProcessDataLength) (oi oo : Word) (hs : SerialAt c0 j len oi oo) (ops : List COp)
    (hsz : ImagesSmall oc ops) :
    (runC oc c0 ops).processors j = some (runOps (MessageProcessor.new len)
      (serialCalls j (inFrame len oi) (outFrame len oo) none (decodedOnly cfg ops))) ∧
    (runC oc c0 ops).write ⟨j, 0⟩ = pendingAfter j none (decodedOnly cfg ops) := by
  have hr : ReachableFrom oc cfg c0 := ⟨c0, [], h0, rfl⟩
  have hp : c0.processors j = some (MessageProcessor.new len) := by
    obtain ⟨cm, hm, rfl, -⟩ := hs
    obtain ⟨-, -, ms, -, rfl⟩ := new_ok h0
    simp only [initial]
    have : ms[j]? = some (Module.com cm) := hm.1
    rw [this]
    rfl
  have hw : c0.write ⟨j, 0⟩ = none := ((C13_success cfg).2 c0 h0).2.2.2.2.2 _
  obtain ⟨ins, h⟩ := run_decodedOnly ops hr hsz
  rw [h]
  have := own_calls (decodedOnly cfg ops) c0 _ hr hs hp fun pi po => decodedOnly_mem
  rwa [hw] at this

theorem lastCountOf_run {oc : Bool} {cfg : CouplerConfig}
    (ops : List COp) {c : Coupler} (hr : ReachableFrom oc cfg c)
    (hc : ∀ pi po, COp.next pi po ∈ ops → Decodable cfg pi po) :
    (runC oc c ops).lastTxCnt = lastCountOf cfg c.lastTxCnt ops := by
  induction ops generalizing c with
  | nil => rfl
  | cons op ops ih =>
    rw [show runC oc c (op :: ops) = runC oc (op.apply oc c) ops from rfl,
      ih (c := op.apply oc c) (reachable_run hr [op]) fun pi po h => hc pi po (List.mem_cons_of_mem _ h)]
    cases op with
    | next pi po =>
      simp only [lastCountOf, COp.apply]
      rw [decoded_count hr (hc pi po List.mem_cons_self)]
    | setOutput a v => rw [apply_lastTxCnt oc c _ (by exact trivial)]; rfl
    | read n k => rw [apply_lastTxCnt oc c _ (by exact trivial)]; rfl
    | write n b => rw [apply_lastTxCnt oc c _ (by exact trivial)]; rfl

theorem serialAt_of_configured {oc : Bool} {cfg : CouplerConfig} {c : Coupler}
    (hr : ReachableFrom oc cfg c) {j : Nat} {par : List Word}
    {o i : Word} (hcfg : ConfiguredAt cfg j .UR20_1COM_232_485_422 par o i) (ho : o ≠ noOffset)
    (hi : i ≠ noOffset) (hal : o.toNat % 16 = 0 ∧ i.toNat % 16 = 0) (hb : outputBase ≤ o.toNat) :
    SerialAt c j (frameLength par) i o := by
  obtain ⟨m, hm, hc⟩ := configured_at hr hcfg
  obtain ⟨cm, rfl⟩ := (isSerial_type hc).2 rfl
  rw [wordToOffset_some.2 ⟨ho, rfl⟩, wordToOffset_some.2 ⟨hi, rfl⟩] at hm
  exact ⟨cm, hm, frameLength_eq hc, hal.2, hal.1, hb⟩

/-- C80: `outputs()` for a serial module with both offsets, at registers, in a coupler with any number of serial
modules: the bytes of the frame in the given output image are shown exactly if there are any and the
segment number differs from that of the serial module before it or, for the first one, from that of
the last serial module in the last decodable cycle (0 if there was none). -/
theorem C80_outputs (oc : Bool) (cfg : CouplerConfig) (c0 : Coupler)
    (h0 : Coupler.new cfg = .ok c0) (ops : List COp)
    (hsz : ImagesSmall oc ops) (pi po : List Word) (hd : Decodable cfg pi po)
    (j : Nat) (par : List Word) (o i : Word)
    (hcfg : ConfiguredAt cfg j .UR20_1COM_232_485_422 par o i) (ho : o ≠ noOffset)
    (hi : i ≠ noOffset) (hal : o.toNat % 16 = 0 ∧ i.toNat % 16 = 0) :
    let c' := ((runC oc c0 ops).next oc pi po).1
    let before := countBefore cfg po (lastCountOf cfg 0 (decodedOnly cfg ops)) j
    ∃ f, outFrame (frameLength par) o po = some f ∧
      (f.data ≠ [] → f.txCnt ≠ before → c'.outputs[j]? = some [.bytes f.data]) ∧
      ((f.data = [] ∨ f.txCnt = before) → c'.outputs[j]? = some [.none]) := by
  have hr0 : ReachableFrom oc cfg c0 := ⟨c0, [], h0, rfl⟩
  have hr := reachable_run hr0 ops
  have hlast : (runC oc c0 ops).lastTxCnt = lastCountOf cfg 0 (decodedOnly cfg ops) := by
    obtain ⟨ins, h⟩ := run_decodedOnly ops hr0 hsz
    have := lastCountOf_run (oc := oc) (decodedOnly cfg ops) hr0 fun pi po => decodedOnly_mem
    rw [h]
    simp only
    rw [this]
    obtain ⟨-, -, ms, -, rfl⟩ := new_ok h0
    rfl
  obtain ⟨p, fi, f, -, -, g3, -, g5, -⟩ := decoded_serial hr hd
    (serialAt_of_configured hr hcfg ho hi hal (hd.2 _ _ _ _ _ hcfg ho).1)
  simp only
  refine ⟨f, g3, ?_, ?_⟩
  · intro hne hcnt
    rw [g5, hlast]
    unfold shownOut
    rw [if_pos]
    simp [hne, hcnt]
  · intro h
    rw [g5, hlast]
    unfold shownOut
    rw [if_neg]
    rcases h with h | h <;> simp [h]

/-- C80: `inputs()` for a serial module with both offsets, at registers, in every cycle that can be decoded, also
if it fails to encode. -/
theorem C80_inputs (oc : Bool) (cfg : CouplerConfig) (c : Coupler) (hr : ReachableFrom oc cfg c)
    (pi po : List Word) (hd : Decodable cfg pi po)
    (j : Nat) (par : List Word) (o i : Word)
    (hcfg : ConfiguredAt cfg j .UR20_1COM_232_485_422 par o i) (ho : o ≠ noOffset)
    (hi : i ≠ noOffset) (hal : o.toNat % 16 = 0 ∧ i.toNat % 16 = 0) :
    ∃ f, inFrame (frameLength par) i pi = some f ∧
      (f.dataAvailable = true → f.data ≠ [] →
        (c.next oc pi po).1.inputs[j]? = some [.bytes f.data]) ∧
      ((f.dataAvailable = false ∨ f.data = []) →
        (c.next oc pi po).1.inputs[j]? = some [.none]) := by
  obtain ⟨p, f, fo, -, g2, -, g4, -⟩ := decoded_serial hr hd
    (serialAt_of_configured hr hcfg ho hi hal (hd.2 _ _ _ _ _ hcfg ho).1)
  refine ⟨f, g2, ?_, ?_⟩
  · intro h1 h2
    rw [g4]
    simp [shownIn, h1, h2]
  · intro h
    rw [g4]
    rcases h with h | h <;> simp [shownIn, h]

/-! ### Examples -/

theorem exTwo_at {j : Nat} {t : ModuleType} {par : List Word} {o i : Word}
    (h : ConfiguredAt exTwo j t par o i) :
    (j = 0 ∧ t = .UR20_1COM_232_485_422 ∧ o = 0x8000#16 ∧ i = 0#16 ∧ par = List.replicate 10 0) ∨
    (j = 1 ∧ t = .UR20_1COM_232_485_422 ∧ o = 0x8040#16 ∧ i = 0x40#16 ∧
      par = List.replicate 10 0) := by
  obtain ⟨h1, h2, h3, h4⟩ := h
  have hj : j < 2 := (List.getElem?_eq_some_iff.1 h1).1
  match j, hj with
  | 0, _ => cases h1; cases h2; cases h3; cases h4; decide
  | 1, _ => cases h1; cases h2; cases h3; cases h4; decide

theorem exTwo_decodable : Decodable exTwo exTwoPi exTwoPo := by
  constructor
  · intro j t par o i h _
    rcases exTwo_at h with ⟨rfl, rfl, rfl, rfl, rfl⟩ | ⟨rfl, rfl, rfl, rfl, rfl⟩
    · refine ⟨by unfold HasRegisters; decide, fun _ b hb => ?_⟩
      rw [show byteAt exTwoPi _ = some 0#8 by decide] at hb
      cases hb; decide
    · refine ⟨by unfold HasRegisters; decide, fun _ b hb => ?_⟩
      rw [show byteAt exTwoPi _ = some 0#8 by decide] at hb
      cases hb; decide
  · intro j t par o i h _
    rcases exTwo_at h with ⟨rfl, rfl, rfl, rfl, rfl⟩ | ⟨rfl, rfl, rfl, rfl, rfl⟩
    · refine ⟨by decide, by unfold HasRegisters; decide, fun _ b hb => ?_⟩
      rw [show byteAt exTwoPo _ = some 1#8 by decide] at hb
      cases hb; decide
    · refine ⟨by decide, by unfold HasRegisters; decide, fun _ b hb => ?_⟩
      rw [show byteAt exTwoPo _ = some 1#8 by decide] at hb
      cases hb; decide

/-- A history with a cycle that cannot be decoded, one that can and a write. -/
example : decodedOnly exTwo [.next [] [], .write 0 [1], .next exTwoPi exTwoPo] =
    [.write 0 [1], .next exTwoPi exTwoPo] := by
  have h : ¬ Decodable exTwo [] [] := by
    rintro ⟨h, -⟩
    have := (h 0 _ _ _ _ ⟨rfl, rfl, rfl, rfl⟩ (by decide)).1.2.2
    revert this
    decide
  simp [decodedOnly, h, exTwo_decodable]

/-- The segment numbers are 1 and 2: both segments are shown, and both are shown again when the
same image is given again, since each is compared with that of the other module. -/
example : countBefore exTwo exTwoPo 0 0 = 0 ∧ countBefore exTwo exTwoPo 0 1 = 1 ∧
    lastCountOf exTwo 0 [.next exTwoPi exTwoPo] = 2 ∧
    countBefore exTwo exTwoPo 2 0 = 2 ∧ countBefore exTwo exTwoPo 2 1 = 1 := by decide
example :
    ((initial exTwo exTwoModules).next true exTwoPi exTwoPo).1.outputs =
      [[.bytes [0x41]], [.bytes [0x42]]] ∧
    (runC true (initial exTwo exTwoModules) [.next exTwoPi exTwoPo, .next exTwoPi exTwoPo]).outputs =
      [[.bytes [0x41]], [.bytes [0x42]]] := ⟨rfl, rfl⟩

end Ur20
