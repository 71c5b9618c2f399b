import Verif.Lemmas.SerialCoupler
import Verif.Props.Writes
import Verif.Props.Protocol

/-! # Serial modules of a coupler: C58, C59, C60, C62, C63 -/

namespace Ur20

open Spec Com Coupler

/-! ### C59 -/

/-- C59: in a successful cycle `inputs()` shows the data of the input frame of a serial module if
the frame says that data is available and has some, and nothing otherwise. -/
theorem C59_inputs (oc : Bool) (cfg : CouplerConfig) (c : Coupler) (hr : ReachableFrom oc cfg c)
    (j : Nat) (len : ProcessDataLength) (oi oo : Word) (hs : SerialAt c j len oi oo)
    (pi po img : List Word) (c' : Coupler) (h : c.next oc pi po = (c', .ok img)) :
    ∃ i, inFrame len oi pi = some i ∧
      (i.dataAvailable = true → i.data ≠ [] → c'.inputs[j]? = some [.bytes i.data]) ∧
      ((i.dataAvailable = false ∨ i.data = []) → c'.inputs[j]? = some [.none]) := by
  obtain ⟨p, i, o, lt, -, h2, -, h4, -⟩ := serial_cycle (inv_of_reachable hr) hs h
  refine ⟨i, h2, fun h5 h6 => ?_, fun h5 => ?_⟩
  · rw [h4]; simp [shownIn, h5, h6]
  · rw [h4]; rcases h5 with h5 | h5 <;> simp [shownIn, h5]

/-! ### C58 -/

/-- C58 for couplers with any number of serial modules: `outputs()` shows the data of the output
frame if it has some and its segment number differs from that of the previous cycle (0 before the
first). -/
def C58_statement : Prop :=
  ∀ (oc : Bool) (cfg : CouplerConfig) (c0 : Coupler), Coupler.new cfg = .ok c0 →
    ∀ (j : Nat) (len : ProcessDataLength) (oi oo : Word), SerialAt c0 j len oi oo →
    ∀ (ops : List COp), CyclesSucceed oc c0 ops →
    ∀ (pi po img : List Word) (c' : Coupler), (runC oc c0 ops).next oc pi po = (c', .ok img) →
    ∃ o, outFrame len oo po = some o ∧
      (o.data ≠ [] → o.txCnt ≠ lastCount (outFrame len oo) 0 ops →
        c'.outputs[j]? = some [.bytes o.data]) ∧
      ((o.data = [] ∨ o.txCnt = lastCount (outFrame len oo) 0 ops) →
        c'.outputs[j]? = some [.none])

/-- Two serial modules. -/
def exTwo : CouplerConfig :=
  { modules := [.UR20_1COM_232_485_422, .UR20_1COM_232_485_422]
    offsets := [0x8000#16, 0x0000#16, 0x8040#16, 0x0040#16]
    params := [List.replicate 10 0, List.replicate 10 0] }

def exTwoModules : List Module :=
  match Module.create .UR20_1COM_232_485_422 (List.replicate 10 0) with
  | .ok m => [m, m]
  | _ => []

theorem exTwo_new : Coupler.new exTwo = .ok (initial exTwo exTwoModules) := by
  rw [new_eq]; rfl

/-- Segment 1 for the first module, segment 2 for the second one. -/
def exTwoPo : List Word := [0x0108#16, 0x0041#16, 0#16, 0#16, 0x0110#16, 0x0042#16, 0#16, 0#16]
def exTwoPi : List Word := List.replicate 8 0#16

theorem exTwo_serial : SerialAt (initial exTwo exTwoModules) 0 .EightBytes 0x0000#16 0x8000#16 ∧
    SerialAt (initial exTwo exTwoModules) 1 .EightBytes 0x0040#16 0x8040#16 :=
  ⟨⟨_, ⟨rfl, rfl⟩, rfl, by decide, by decide, by decide⟩,
   ⟨_, ⟨rfl, rfl⟩, rfl, by decide, by decide, by decide⟩⟩

/-- C58 is false with several serial modules: they share the memory of the last segment number, so
an unchanged segment is shown again. -/
theorem C58_statement_false : ¬ C58_statement := by
  intro h
  obtain ⟨o, h1, -, h3⟩ := h true exTwo _ exTwo_new 0 _ _ _ exTwo_serial.1
    [.next exTwoPi exTwoPo] ⟨by intro pi po he; cases he; exact ⟨_, rfl⟩, trivial⟩
    exTwoPi exTwoPo _ _ rfl
  have h1' : outFrame .EightBytes 0x8000#16 exTwoPo = some ⟨false, false, false, 1, 0, false, [0x41#8]⟩ := by
    decide
  rw [h1'] at h1
  cases h1
  have h4 := h3 (.inr (by decide))
  have h5 : (some [ChannelValue.bytes [0x41#8]] : Option (List ChannelValue)) = some [.none] := h4
  cases h5

theorem lastCount_run {oc : Bool} {c : Coupler} (hi : c.Inv) {j : Nat} {len : ProcessDataLength}
    {oi oo : Word} (hs : SerialAt c j len oi oo) (ho : OnlySerial c j) (ops : List COp)
    (hc : CyclesSucceed oc c ops) :
    (runC oc c ops).lastTxCnt = lastCount (outFrame len oo) c.lastTxCnt ops := by
  induction ops generalizing c with
  | nil => rfl
  | cons op ops ih =>
    have hst := apply_static oc c op
    have := ih (hi.apply oc op) (hs.congr hst.1 hst.2) (ho.congr hst.1) hc.2
    rw [show runC oc c (op :: ops) = runC oc (op.apply oc c) ops from rfl, this]
    cases op with
    | next pi po =>
      obtain ⟨img, h⟩ := hc.1 pi po rfl
      have h' : c.next oc pi po = ((c.next oc pi po).1, .ok img) := by rw [← h]
      obtain ⟨p, i, o, lt, -, -, h3, -⟩ := serial_cycle hi hs h'
      simp only [lastCount, h3, COp.apply]
      rw [serial_lastTxCnt hi hs ho h' h3]
    | setOutput a v => rw [apply_lastTxCnt oc c _ (by exact trivial)]; rfl
    | read n k => rw [apply_lastTxCnt oc c _ (by exact trivial)]; rfl
    | write n b => rw [apply_lastTxCnt oc c _ (by exact trivial)]; rfl

/-- C58 for couplers with exactly one serial module. -/
theorem C58_outputs_partial (oc : Bool) (cfg : CouplerConfig) (c0 : Coupler)
    (h0 : Coupler.new cfg = .ok c0) (j : Nat) (len : ProcessDataLength) (oi oo : Word)
    (hs : SerialAt c0 j len oi oo) (ho : OnlySerial c0 j) (ops : List COp)
    (hc : CyclesSucceed oc c0 ops) (pi po img : List Word) (c' : Coupler)
    (h : (runC oc c0 ops).next oc pi po = (c', .ok img)) :
    ∃ o, outFrame len oo po = some o ∧
      (o.data ≠ [] → o.txCnt ≠ lastCount (outFrame len oo) 0 ops →
        c'.outputs[j]? = some [.bytes o.data]) ∧
      ((o.data = [] ∨ o.txCnt = lastCount (outFrame len oo) 0 ops) →
        c'.outputs[j]? = some [.none]) := by
  have hi := Inv.new h0
  have hst := run_static oc c0 ops
  have hs' := hs.congr hst.1 hst.2
  have ho' := ho.congr hst.1
  have hi' := hi.run oc ops
  have hl := lastCount_run hi hs ho ops hc
  have hz : c0.lastTxCnt = 0 := by
    obtain ⟨-, -, ms, -, rfl⟩ := new_ok h0
    rfl
  rw [hz] at hl
  obtain ⟨p, i, o, lt, -, -, h3, -, h5, h6, -⟩ := serial_cycle hi' hs' h
  have hlt : lt = lastCount (outFrame len oo) 0 ops := by
    rw [← hl]
    apply h6
    intro k hk
    cases hp : (runC oc c0 ops).processors k with
    | none => rfl
    | some q =>
      obtain ⟨cm, hcm, -⟩ := hi'.proc k q hp
      have := ho' k _ hcm ⟨cm, rfl⟩
      omega
  subst hlt
  refine ⟨o, h3, fun a b => ?_, fun a => ?_⟩
  · rw [h5]; simp [shownOut, a, b]
  · rw [h5]; rcases a with a | a <;> simp [shownOut, a]

theorem exCfg_serial : SerialAt (initial exCfg exModules) 3 .EightBytes 0x0010#16 0x8010#16 :=
  ⟨_, ⟨rfl, rfl⟩, rfl, by decide, by decide, by decide⟩

theorem exCfg_only : OnlySerial (initial exCfg exModules) 3 := by
  intro k m hk ⟨cm, hm⟩
  subst hm
  match k with
  | 0 => cases hk
  | 1 => cases hk
  | 2 => cases hk
  | 3 => rfl
  | k + 4 =>
    have : (initial exCfg exModules).modules.length = 4 := rfl
    rw [List.getElem?_eq_none (by omega)] at hk
    cases hk

/-- A new segment is shown once, by the first of two cycles with the same images. -/
example : ∃ c1 c2 i1 i2 o, (initial exCfg exModules).next true exPi o = (c1, .ok i1) ∧
    c1.next true exPi o = (c2, .ok i2) ∧
    outFrame .EightBytes 0x8010#16 o = some ⟨false, false, false, 2, 0, false, [0x41#8]⟩ ∧
    c1.outputs[3]? = some [.bytes [0x41#8]] ∧ c2.outputs[3]? = some [.none] :=
  ⟨_, _, _, _, [0#16, 0x0110#16, 0x0041#16, 0#16, 0#16], rfl, rfl, by decide, rfl, rfl⟩

/-- Data in the input frame is shown. -/
example : ∃ c1 i1, (initial exCfg exModules).next true [0#16, 0x0101#16, 0x0041#16, 0#16, 0#16] exPo
    = (c1, .ok i1) ∧ c1.inputs[3]? = some [.bytes [0x41#8]] := ⟨_, _, rfl, rfl⟩

/-! ### C60 -/

/-- What a value set on a serial module does: a cycle that decodes its images behaves as if its bytes had
been written to the message processor. -/
theorem set_serial_decoded (oc : Bool) {c : Coupler} (hi : c.Inv) {j : Nat} {len : ProcessDataLength}
    {oi oo : Word} (hs : SerialAt c j len oi oo) (hw : c.write ⟨j, 0⟩ = none) {p : MessageProcessor}
    (hp : c.processors j = some p) (v : ChannelValue) {pi po : List Word} {ins outs}
    (h1 : processInputData oc (infos c) pi = .ok ins)
    (h2 : processOutputData oc (infos c) po = .ok outs) :
    (c.setOutput ⟨j, 0⟩ v).1.next oc pi po = (c.setProcessor j (feed p (some v))).next oc pi po := by
  have hv := hs.valid
  obtain ⟨cm, hm, rfl, ha1, ha2, ha3⟩ := id hs
  have hA : (c.setOutput ⟨j, 0⟩ v).1 = { c with write := Coupler.insert c.write ⟨j, 0⟩ v } := by
    simp [setOutput, hv]
  rw [hA]
  generalize hcA : ({ c with write := Coupler.insert c.write ⟨j, 0⟩ v } : Coupler) = cA
  generalize hcB : c.setProcessor j (feed p (some v)) = cB
  have iA : cA.Inv := by
    have := hi.apply oc (.setOutput ⟨j, 0⟩ v)
    simp only [COp.apply] at this
    rwa [hA, hcA] at this
  have iB : cB.Inv := by
    subst hcB
    by_cases hb : ∃ data, v = .bytes data
    · obtain ⟨data, rfl⟩ := hb
      have := hi.apply oc (.write j data)
      simp only [COp.apply, writeBytes, hp] at this
      exact this
    · have hf : feed p (some v) = p := by
        cases v <;> first | rfl | exact absurd ⟨_, rfl⟩ hb
      have : c.setProcessor j p = c := by
        simp only [setProcessor]
        congr
        funext k
        split
        · rename_i h; rw [h, hp]
        · rfl
      rw [hf, this]
      exact hi
  have fA : infos cA = infos c := by subst hcA; rfl
  have fB : infos cB = infos c := by subst hcB; rfl
  obtain ⟨stA, rsA, lA⟩ := iA.cycle_ok (by rw [fA]; exact h1) (by rw [fA]; exact h2)
  obtain ⟨stB, rsB, lB⟩ := iB.cycle_ok (by rw [fB]; exact h1) (by rw [fB]; exact h2)
  obtain ⟨dA1, dA2⟩ := Coupler.next_done (by rw [fA]; exact h1) (by rw [fA]; exact h2) lA
    (c' := (cA.next oc pi po).1) (r := (cA.next oc pi po).2) rfl
  obtain ⟨dB1, dB2⟩ := Coupler.next_done (by rw [fB]; exact h1) (by rw [fB]; exact h2) lB
    (c' := (cB.next oc pi po).1) (r := (cB.next oc pi po).2) rfl
  have pA : cA.processors = c.processors := by subst hcA; rfl
  have pB : ∀ k, cB.processors k = if k = j then some (feed p (some v)) else c.processors k := by
    subst hcB; intro k; rfl
  have wA : cA.write = Coupler.insert c.write ⟨j, 0⟩ v := by subst hcA; rfl
  have wB : cB.write = c.write := by subst hcB; rfl
  have tA : cA.lastTxCnt = cB.lastTxCnt := by subst hcA; subst hcB; rfl
  obtain ⟨q1, q2, q3⟩ := cycleLoop_pair lA lB (by
    intro k
    simp only [pA, pB]
    by_cases hk : k = j
    · subst hk; simp [hp]
    · simp [hk]) tA
  -- one module at a time
  have key : ∀ (k : Nat), k < (ins.zip outs).length → rsA[k]? = rsB[k]? ∧
      (∀ a : Address, a.module = k → stA.write a = stB.write a) ∧
      stA.processors k = stB.processors k := by
    intro k hk
    obtain ⟨lt, a, b, r, r2, b1, b2, b3, b4, b5, b6, b7⟩ := q3 k _ _ (List.getElem?_eq_getElem hk)
    by_cases hkj : k = j
    · subst hkj
      have hz := List.getElem?_zip_eq_some.1 (List.getElem?_eq_getElem hk)
      obtain ⟨inV, hi1, hi2⟩ := mapRes_getElem? h1 (infos_getElem? hm)
      obtain ⟨outV, ho1, ho2⟩ := mapRes_getElem? h2 (infos_getElem? hm)
      obtain ⟨i, rfl, -⟩ := serial_input hi2 ha1
      obtain ⟨o, rfl, -⟩ := serial_output ho2 ha2 ha3
      have e1 : (ins.zip outs)[k].1 = [.comRsIn i] := Option.some.inj (hz.1.symm.trans hi1)
      have e2 : (ins.zip outs)[k].2 = [.comRsOut o] := Option.some.inj (hz.2.symm.trans ho1)
      simp only [List.get_eq_getElem, e1, e2] at b1 b2
      rw [moduleStep_serial (p := p) (by simp only [pA, hp])] at b1
      rw [moduleStep_serial (p := (feed p (some v))) (by simp only [pB, if_true])] at b2
      have hfA : feed p (cA.write ⟨k, 0⟩) = (feed p (some v)) := by
        rw [wA]; simp [Coupler.insert, feed]
      have hfB : feed (feed p (some v)) (cB.write ⟨k, 0⟩) = (feed p (some v)) := by
        rw [wB, hw]; rfl
      simp only [hfA] at b1
      simp only [hfB] at b2
      cases b1
      cases b2
      refine ⟨by rw [b3, b4], fun x hx => ?_, by rw [b6, b7]; simp⟩
      rw [(b5 x hx).1, (b5 x hx).2]
      simp only [remove, wA, wB, Coupler.insert]
      split <;> rfl
    · obtain ⟨b', c1, c2, c3⟩ := moduleStep_congr (st2 := ⟨cB.write, cB.processors, lt⟩) b1
        (fun x hx => by
          simp only [wA, wB, Coupler.insert]
          rw [if_neg]
          rintro rfl
          exact hkj hx.symm) (by simp only [pA, pB, if_neg hkj]) rfl
      rw [b2] at c1
      cases c1
      exact ⟨by rw [b3, b4], fun x hx => by rw [(b5 x hx).1, (b5 x hx).2, c2 x hx],
        by rw [b6, b7, c3]⟩
  have sA := cycleLoop_spec lA
  have sB := cycleLoop_spec lB
  have hjl : j < (ins.zip outs).length := by
    obtain ⟨inV, hi1, -⟩ := mapRes_getElem? h1 (infos_getElem? hm)
    obtain ⟨outV, ho1, -⟩ := mapRes_getElem? h2 (infos_getElem? hm)
    have := (List.getElem?_eq_some_iff.1 hi1).1
    have := (List.getElem?_eq_some_iff.1 ho1).1
    rw [List.length_zip]
    omega
  have hrs : rsA = rsB := by
    apply List.ext_getElem?
    intro k
    by_cases hk : k < (ins.zip outs).length
    · exact (key k hk).1
    · rw [List.getElem?_eq_none (by omega), List.getElem?_eq_none (by omega)]
  have hst : stA = stB := by
    obtain ⟨w1, p1, t1⟩ := stA
    obtain ⟨w2, p2, t2⟩ := stB
    simp only at q2 key
    subst q2
    have : w1 = w2 := by
      funext x
      by_cases hk : x.module < (ins.zip outs).length
      · exact (key x.module hk).2.1 x rfl
      · have e1 := sA.2.1 x (.inr (by omega))
        have e2 := sB.2.1 x (.inr (by omega))
        simp only [wA, wB, Coupler.insert] at e1 e2
        rw [e1, e2, if_neg]
        rintro rfl
        exact hk hjl
    subst this
    have : p1 = p2 := by
      funext k
      by_cases hk : k < (ins.zip outs).length
      · exact (key k hk).2.2
      · have e1 := sA.2.2.1 k (.inr (by omega))
        have e2 := sB.2.2.1 k (.inr (by omega))
        simp only [pA, pB] at e1 e2
        rw [e1, e2, if_neg (by omega)]
    subst this
    rfl
  apply Prod.ext
  · rw [dA1, dB1, hst, hrs]
    subst hcA
    subst hcB
    rfl
  · rw [dA2, dB2, hrs, fA, fB]

/-- The next cycle that succeeds behaves as if the bytes of the value had been written. -/
theorem set_serial_next (oc : Bool) {c : Coupler} (hi : c.Inv) {j : Nat} {len : ProcessDataLength} {oi oo : Word}
    (hs : SerialAt c j len oi oo) (hw : c.write ⟨j, 0⟩ = none) {p : MessageProcessor}
    (hp : c.processors j = some p) (v : ChannelValue) (pi po img : List Word) (c' : Coupler) :
    (c.setOutput ⟨j, 0⟩ v).1.next oc pi po = (c', .ok img) ↔
    (c.setProcessor j (feed p (some v))).next oc pi po = (c', .ok img) := by
  have hf : infos (c.setOutput ⟨j, 0⟩ v).1 = infos c := by
    simp only [setOutput]
    split <;> rfl
  constructor
  · intro h
    obtain ⟨ins, outs, st, rs, h1, h2, -⟩ := next_ok h
    rw [hf] at h1 h2
    rw [← set_serial_decoded oc hi hs hw hp v h1 h2, h]
  · intro h
    obtain ⟨ins, outs, st, rs, h1, h2, -⟩ := next_ok h
    rw [set_serial_decoded oc hi hs hw hp v h1 h2, h]

/-- C60: setting bytes on a serial module and writing the same bytes to its writer have the same
effect on the next cycle: if one succeeds so does the other, with the same image and the same state
of the coupler. -/
theorem C60_set_output_bytes (oc : Bool) (cfg : CouplerConfig) (c : Coupler)
    (hr : ReachableFrom oc cfg c) (j : Nat) (len : ProcessDataLength) (oi oo : Word)
    (hs : SerialAt c j len oi oo) (hw : c.write ⟨j, 0⟩ = none) (data : List Byte)
    (pi po img : List Word) (c' : Coupler) :
    (c.setOutput ⟨j, 0⟩ (.bytes data)).1.next oc pi po = (c', .ok img) ↔
    (c.writeBytes j data).1.next oc pi po = (c', .ok img) := by
  obtain ⟨cm, hm, -⟩ := id hs
  obtain ⟨p, hp⟩ := (inv_of_reachable hr).com j cm hm.1
  rw [set_serial_next oc (inv_of_reachable hr) hs hw hp]
  simp [writeBytes, hp, feed]

/-- Bytes set on the serial module leave the coupler in the third cycle. -/
example : ∃ c' img, (runC true (initial exCfg exModules) [.next exPi exPo, .next exPi exPo,
    .setOutput ⟨3, 0⟩ (.bytes [7#8])]).next true exPi exPo = (c', .ok img) ∧
    (outFrame .EightBytes 0x8010#16 img).map RsOut.data = some [7#8] := ⟨_, _, rfl, by decide⟩

/-! ### C63 -/

/-- C63: after any history of successful cycles the state of a serial module is that of a processor
of its own that was only given the calls and frames of this module. -/
theorem C63_own_calls (oc : Bool) (cfg : CouplerConfig) (c0 : Coupler)
    (h0 : Coupler.new cfg = .ok c0) (j : Nat) (len : ProcessDataLength) (oi oo : Word)
    (hs : SerialAt c0 j len oi oo) (ops : List COp) (hc : CyclesSucceed oc c0 ops) :
    (runC oc c0 ops).processors j = some (runOps (MessageProcessor.new len)
      (serialCalls j (inFrame len oi) (outFrame len oo) none ops)) ∧
    (runC oc c0 ops).write ⟨j, 0⟩ = pendingAfter j none ops := by
  have key : ∀ (c : Coupler) (p : MessageProcessor), c.Inv → SerialAt c j len oi oo →
      c.processors j = some p → CyclesSucceed oc c ops →
      (runC oc c ops).processors j = some (runOps p
        (serialCalls j (inFrame len oi) (outFrame len oo) (c.write ⟨j, 0⟩) ops)) ∧
      (runC oc c ops).write ⟨j, 0⟩ = pendingAfter j (c.write ⟨j, 0⟩) ops := by
    clear hc hs h0
    induction ops with
    | nil => intro c p _ _ hp _; exact ⟨hp, rfl⟩
    | cons op ops ih =>
      intro c p hi hs hp hc
      have hst := apply_static oc c op
      have ih' := fun p' hp' => ih (op.apply oc c) p' (hi.apply oc op) (hs.congr hst.1 hst.2) hp' hc.2
      rw [show runC oc c (op :: ops) = runC oc (op.apply oc c) ops from rfl]
      cases op with
      | setOutput a v =>
        simp only [COp.apply, serialCalls, pendingAfter] at ih' ⊢
        have e1 : (c.setOutput a v).1.processors j = some p := by
          unfold setOutput; split <;> exact hp
        have e2 : (c.setOutput a v).1.write ⟨j, 0⟩ =
            if a = ⟨j, 0⟩ then some v else c.write ⟨j, 0⟩ := by
          unfold setOutput
          split
          · rename_i hva
            rw [if_neg]
            rintro rfl
            rw [hs.valid] at hva
            cases hva
          · simp only [Coupler.insert, eq_comm]
        have := ih' p e1
        rw [e2] at this
        exact this
      | next pi po =>
        obtain ⟨img, h⟩ := hc.1 pi po rfl
        have h' : c.next oc pi po = ((c.next oc pi po).1, .ok img) := by rw [← h]
        obtain ⟨p', i, o, lt, g1, g2, g3, -, -, -, g7, g8, -⟩ := serial_cycle hi hs h'
        rw [hp] at g1
        cases g1
        simp only [COp.apply, serialCalls, pendingAfter, g2, g3] at ih' ⊢
        have := ih' _ g7
        rw [g8] at this
        rw [this.1, this.2]
        refine ⟨?_, rfl⟩
        congr 1
        cases hw : c.write ⟨j, 0⟩ with
        | none => rfl
        | some v => cases v <;> rfl
      | read n k =>
        simp only [COp.apply, serialCalls, pendingAfter, Coupler.read] at ih' ⊢
        by_cases hn : n = j
        · subst hn
          simp only [hp, read_ok, Res.bind_ok, if_true] at ih' ⊢
          have := ih' { p with inData := p.inData.drop k } (by simp [setProcessor])
          simp only [setProcessor] at this ⊢
          rw [this.1, this.2]
          refine ⟨?_, rfl⟩
          simp [runOps, Op.apply, read_ok]
        · rw [if_neg hn]
          cases hpn : c.processors n with
          | none => simp only [hpn] at ih' ⊢; exact ih' p hp
          | some q =>
            simp only [hpn, read_ok, Res.bind_ok] at ih' ⊢
            exact ih' p (by simp [setProcessor, hp, Ne.symm hn])
      | write n b =>
        simp only [COp.apply, serialCalls, pendingAfter, writeBytes] at ih' ⊢
        by_cases hn : n = j
        · subst hn
          simp only [hp, if_true] at ih' ⊢
          have := ih' (p.write b).1 (by simp [setProcessor])
          simp only [setProcessor] at this ⊢
          rw [this.1, this.2]
          exact ⟨rfl, rfl⟩
        · rw [if_neg hn]
          cases hpn : c.processors n with
          | none => simp only [hpn] at ih' ⊢; exact ih' p hp
          | some q =>
            simp only [hpn] at ih' ⊢
            exact ih' p (by simp [setProcessor, hp, Ne.symm hn])
  have hp : c0.processors j = some (MessageProcessor.new len) := by
    obtain ⟨cm, hm, rfl, -⟩ := hs
    obtain ⟨-, -, ms, -, rfl⟩ := new_ok h0
    simp only [initial]
    have : ms[j]? = some (Module.com cm) := hm.1
    rw [this]
    rfl
  have hw : c0.write ⟨j, 0⟩ = none := ((C13_success cfg).2 c0 h0).2.2.2.2.2 _
  have := key c0 _ (Inv.new h0) hs hp hc
  rwa [hw] at this

/-- C63: two couplers, of whatever configurations, whose serial modules `j` and `k` have seen the
same calls and frames: reads return the same bytes, and cycles in which the two modules are given
the same frames return the same frames to them, whatever happens to other modules. -/
theorem C63_independent (oc : Bool) (cfg cfg' : CouplerConfig) (c d : Coupler)
    (hc : Coupler.new cfg = .ok c) (hd : Coupler.new cfg' = .ok d)
    (j k : Nat) (len : ProcessDataLength) (oi oo oi' oo' : Word)
    (hj : SerialAt c j len oi oo) (hk : SerialAt d k len oi' oo')
    (ops ops' : List COp) (hcs : CyclesSucceed oc c ops) (hds : CyclesSucceed oc d ops')
    (hcalls : serialCalls j (inFrame len oi) (outFrame len oo) none ops =
      serialCalls k (inFrame len oi') (outFrame len oo') none ops') :
    (∀ n, ∃ c' d' bytes, (runC oc c ops).read j n = .ok (c', some bytes) ∧
      (runC oc d ops').read k n = .ok (d', some bytes)) ∧
    (pendingAfter j none ops = pendingAfter k none ops' →
      BytesKept (infos c) j → BytesKept (infos d) k →
      ∀ pi po img c' pi' po' img' d', (runC oc c ops).next oc pi po = (c', .ok img) →
      (runC oc d ops').next oc pi' po' = (d', .ok img') →
      inFrame len oi pi = inFrame len oi' pi' → outFrame len oo po = outFrame len oo' po' →
      outFrame len oo img = outFrame len oo' img' ∧ outFrame len oo img ≠ none) := by
  obtain ⟨p1, w1⟩ := C63_own_calls oc cfg c hc j len oi oo hj ops hcs
  obtain ⟨p2, w2⟩ := C63_own_calls oc cfg' d hd k len oi' oo' hk ops' hds
  rw [← hcalls] at p2
  constructor
  · intro n
    simp only [Coupler.read, p1, p2, read_ok, Res.bind_ok]
    exact ⟨_, _, _, rfl, rfl⟩
  · intro hpend dc dd pi po img c' pi' po' img' d' h h' hin hout
    have sc := run_static oc c ops
    have sd := run_static oc d ops'
    obtain ⟨q, i, o, lt, a1, a2, a3, -, -, -, -, -, a9⟩ :=
      serial_cycle ((Inv.new hc).run oc ops) (hj.congr sc.1 sc.2) h
    obtain ⟨q', i', o', lt', b1, b2, b3, -, -, -, -, -, b9⟩ :=
      serial_cycle ((Inv.new hd).run oc ops') (hk.congr sd.1 sd.2) h'
    have a9 := a9 (by unfold infos at dc ⊢; rw [sc.1, sc.2]; exact dc)
    have b9 := b9 (by unfold infos at dd ⊢; rw [sd.1, sd.2]; exact dd)
    rw [p1] at a1
    rw [p2] at b1
    cases a1
    cases b1
    rw [hin, b2] at a2
    rw [hout, b3] at a3
    cases a2
    cases a3
    rw [w1, hpend] at a9
    rw [w2] at b9
    rw [a9, b9]
    exact ⟨rfl, by simp⟩

/-- Two serial modules in one coupler; only the first one is used. -/
example : ∃ c' img, (runC true (initial exTwo exTwoModules) [.next exTwoPi exTwoPi,
      .next exTwoPi exTwoPi, .write 0 [1#8, 2#8]]).next true exTwoPi exTwoPi = (c', .ok img) ∧
    (outFrame .EightBytes 0x8000#16 img).map RsOut.data = some [1#8, 2#8] ∧
    (outFrame .EightBytes 0x8040#16 img).map RsOut.data = some [] :=
  ⟨_, _, rfl, by decide, by decide⟩

/-! ### C62 -/

namespace Spec.Plant

/-- The plant behaves like a closed system of a processor and the device. -/
structure Sim (j : Nat) (len : ProcessDataLength) (oi oo : Word) (s : Plant) (t : Sys) : Prop where
  inv : s.c.Inv
  serial : SerialAt s.c j len oi oo
  disjoint : BytesKept (infos s.c) j
  proc : s.c.processors j = some t.p
  write : s.c.write ⟨j, 0⟩ = none
  cycles : t.cycles = s.cycles
  out : outFrame len oo s.out = some t.out
  pending : s.pending.map (outFrame len oo) = t.pending.map some
  ack : t.ack = s.ack
  rxCnt : t.rxCnt = s.rxCnt
  avail : t.avail = s.avail
  rxData : t.rxData = s.rxData
  written : t.written = s.written
  received : t.received = s.received
  seen : t.seen = s.seen
  delivered : t.delivered = s.delivered
  fresh : t.fresh = s.fresh

theorem Sim.static {j : Nat} {len : ProcessDataLength} {oi oo : Word} {c c' : Coupler}
    (h1 : c'.modules = c.modules) (h2 : c'.offsets = c.offsets) (hs : SerialAt c j len oi oo)
    (hd : BytesKept (infos c) j) : SerialAt c' j len oi oo ∧ BytesKept (infos c') j :=
  ⟨hs.congr h1 h2, by unfold infos at hd ⊢; rw [h1, h2]; exact hd⟩

/-- Each step of the plant is a step of the closed system, or none. -/
theorem Sim.step_events {oc : Bool} {j : Nat} {len : ProcessDataLength} {oi oo : Word} {s : Plant}
    {t : Sys} (h : Sim j len oi oo s t) (e : PEv) :
    ∃ evs, Sim j len oi oo (s.step oc j len oi oo e) (t.run evs) ∧
      ((e = .finish ∧ evs = [.finish]) ∨ (e ≠ .finish ∧ Ev.finish ∉ evs)) := by
  obtain ⟨c, cy, out, pend, ack, rxc, av, rxd, wr, rec, seen, dlv, fr⟩ := s
  obtain ⟨tp, tcy, tout, tpend, tack, trxc, tav, trxd, twr, trec, tseen, tdlv, tfr⟩ := t
  obtain ⟨hinv, hser, hdis, hproc, hw, hcy, hout, hpend, hack, hrx, hav, hrd, hwr, hrec, hseen, hdlv,
    hfr⟩ := h
  simp only at hinv hser hdis hproc hw hcy hout hpend hack hrx hav hrd hwr hrec hseen hdlv hfr
  subst hcy hack hrx hav hrd hwr hrec hseen hdlv hfr
  cases e with
  | write buf =>
    have hst := apply_static oc c (.write j buf)
    have hI := hinv.apply oc (.write j buf)
    simp only [COp.apply] at hst hI
    obtain ⟨h1, h2⟩ := Sim.static hst.1 hst.2 hser hdis
    refine ⟨[.write buf], ⟨hI, h1, h2, ?_, ?_, rfl, hout, hpend, rfl, rfl, rfl, rfl, rfl, rfl, rfl,
      rfl, rfl⟩, .inr ⟨by simp, by simp⟩⟩
    · simp [Plant.step, writeBytes, hproc, setProcessor, Sys.run, Sys.step]
    · simpa [Plant.step, writeBytes, hproc, setProcessor] using hw
  | read n =>
    have hst := apply_static oc c (.read j n)
    have hI := hinv.apply oc (.read j n)
    simp only [COp.apply, Coupler.read, hproc, read_ok, Res.bind_ok] at hst hI
    obtain ⟨h1, h2⟩ := Sim.static hst.1 hst.2 hser hdis
    refine ⟨[.read n], ?_, .inr ⟨by simp, by simp⟩⟩
    simp only [Plant.step, Coupler.read, hproc, read_ok, Res.bind_ok, Sys.run, List.foldl,
      Sys.step]
    refine ⟨hI, h1, h2, ?_, ?_, rfl, hout, hpend, rfl, rfl, rfl, rfl, rfl, rfl, rfl,
      rfl, rfl⟩
    · simp [setProcessor]
    · simpa [setProcessor] using hw
  | other op =>
    refine ⟨[], ?_, .inr ⟨by simp, by simp⟩⟩
    simp only [Plant.step]
    by_cases hop : op.Elsewhere j
    · rw [if_pos hop]
      have hst := apply_static oc c op
      obtain ⟨h1, h2⟩ := Sim.static hst.1 hst.2 hser hdis
      refine ⟨hinv.apply oc op, h1, h2, ?_, ?_, rfl, hout, hpend, rfl, rfl, rfl, rfl, rfl, rfl, rfl,
        rfl, rfl⟩
      · cases op with
        | setOutput a v =>
          simp only [COp.apply, setOutput]
          split <;> exact hproc
        | next _ _ => exact hop.elim
        | read n k =>
          have hn : n ≠ j := hop
          simp only [COp.apply, Coupler.read]
          cases hpn : c.processors n with
          | none => exact hproc
          | some q =>
            simp only [read_ok, Res.bind_ok, setProcessor]
            rw [if_neg (Ne.symm hn)]
            exact hproc
        | write n b =>
          have hn : n ≠ j := hop
          simp only [COp.apply, writeBytes]
          cases hpn : c.processors n with
          | none => exact hproc
          | some q =>
            simp only [setProcessor]
            rw [if_neg (Ne.symm hn)]
            exact hproc
      · cases op with
        | setOutput a v =>
          have hn : a.module ≠ j := hop
          simp only [COp.apply, setOutput]
          split
          · exact hw
          · simp only [Coupler.insert]
            rw [if_neg]
            · exact hw
            · rintro rfl; exact hn rfl
        | next _ _ => exact hop.elim
        | read n k =>
          simp only [COp.apply, Coupler.read]
          cases hpn : c.processors n with
          | none => exact hw
          | some q => simp only [read_ok, Res.bind_ok, setProcessor]; exact hw
        | write n b =>
          simp only [COp.apply, writeBytes]
          cases hpn : c.processors n with
          | none => exact hw
          | some q => simp only [setProcessor]; exact hw
    · rw [if_neg hop]
      exact ⟨hinv, hser, hdis, hproc, hw, rfl, hout, hpend, rfl, rfl, rfl, rfl, rfl, rfl, rfl, rfl,
        rfl⟩
  | start pi =>
    have stay : Sim j len oi oo
        ⟨c, tcy, out, pend, tack, trxc, tav, trxd, twr, trec, tseen, tdlv, tfr⟩
        ⟨tp, tcy, tout, tpend, tack, trxc, tav, trxd, twr, trec, tseen, tdlv, tfr⟩ :=
      ⟨hinv, hser, hdis, hproc, hw, rfl, hout, hpend, rfl, rfl, rfl, rfl, rfl, rfl, rfl, rfl, rfl⟩
    simp only [Plant.step]
    split
    · rename_i f c' img hf hn
      split
      · rename_i hpr
        have htp : tpend = none := by
          cases tpend with
          | none => rfl
          | some x => simp at hpend
        subst htp
        obtain ⟨p, i, o, lt, g1, g2, g3, -, -, -, g7, g8, g9⟩ := serial_cycle hinv hser hn
        rw [hf] at g2
        cases g2
        rw [hproc] at g1
        cases g1
        rw [hout] at g3
        cases g3
        rw [hw] at g7 g9
        have g9 := g9 hdis
        simp only [feed] at g7 g9
        have hst := next_static oc c pi out
        rw [hn] at hst
        obtain ⟨s1, s2⟩ := Sim.static hst.1 hst.2 hser hdis
        have hI : c'.Inv := by have := hinv.next oc pi out; rwa [hn] at this
        obtain ⟨q1, q2, q3, q4⟩ := hpr
        simp only at q1 q2 q3 q4
        have hinp : Sys.input ⟨tp, tcy, tout, none, tack, trxc, tav, trxd, twr, trec, tseen, tdlv,
            tfr⟩ f.bufferNearlyFull f.ready = f := by
          obtain ⟨x1, x2, x3, x4, x5, x6⟩ := f
          simp only at q1 q2 q3 q4
          subst q1 q2 q3 q4
          rfl
        refine ⟨[.start f.bufferNearlyFull f.ready], ?_, .inr ⟨by simp, by simp⟩⟩
        simp only [Sys.run, List.foldl, Sys.step, Option.isSome_none, Bool.false_eq_true, if_false,
          hinp]
        split
        · exact ⟨hI, s1, s2, g7, g8, rfl, hout, by simpa using g9, rfl, rfl, rfl, rfl, rfl, rfl, rfl,
            rfl, rfl⟩
        · exact ⟨hI, s1, s2, g7, g8, rfl, hout, by simpa using g9, rfl, rfl, rfl, rfl, rfl, rfl, rfl,
            rfl, rfl⟩
      · exact ⟨[], stay, .inr ⟨by simp, by simp⟩⟩
    · exact ⟨[], stay, .inr ⟨by simp, by simp⟩⟩
  | finish =>
    refine ⟨[.finish], ?_, .inl ⟨rfl, rfl⟩⟩
    simp only [Plant.step, Sys.run, List.foldl, Sys.step]
    cases pend with
    | none =>
      have htp : tpend = none := by
        cases tpend with
        | none => rfl
        | some x => simp at hpend
      subst htp
      exact ⟨hinv, hser, hdis, hproc, hw, rfl, hout, rfl, rfl, rfl, rfl, rfl, rfl, rfl, rfl, rfl,
        rfl⟩
    | some img =>
      cases tpend with
      | none => simp at hpend
      | some r =>
        simp only [Option.map_some, Option.some.injEq] at hpend
        exact ⟨hinv, hser, hdis, hproc, hw, rfl, hpend, rfl, rfl, rfl, rfl, rfl, rfl, rfl, rfl, rfl,
          rfl⟩
  | take =>
    refine ⟨[.take], ?_, .inr ⟨by simp, by simp⟩⟩
    simp only [Plant.step, Sys.run, List.foldl, Sys.step, hout]
    split <;> exact ⟨hinv, hser, hdis, hproc, hw, rfl, hout, hpend, rfl, rfl, rfl, rfl, rfl, rfl,
      rfl, rfl, rfl⟩
  | post seg =>
    refine ⟨[.post seg], ?_, .inr ⟨by simp, by simp⟩⟩
    simp only [Plant.step, Sys.run, List.foldl, Sys.step, hout]
    split <;> exact ⟨hinv, hser, hdis, hproc, hw, rfl, hout, hpend, rfl, rfl, rfl, rfl, rfl, rfl,
      rfl, rfl, rfl⟩
  | hide =>
    refine ⟨[.hide], ?_, .inr ⟨by simp, by simp⟩⟩
    simp only [Plant.step, Sys.run, List.foldl, Sys.step, hout]
    split <;> exact ⟨hinv, hser, hdis, hproc, hw, rfl, hout, hpend, rfl, rfl, rfl, rfl, rfl, rfl,
      rfl, rfl, rfl⟩

theorem Sim.step {oc : Bool} {j : Nat} {len : ProcessDataLength} {oi oo : Word} {s : Plant}
    {t : Sys} (h : Sim j len oi oo s t) (e : PEv) :
    ∃ evs, Sim j len oi oo (s.step oc j len oi oo e) (t.run evs) := by
  obtain ⟨evs, h1, -⟩ := h.step_events (oc := oc) e
  exact ⟨evs, h1⟩

theorem Sim.run {oc : Bool} {j : Nat} {len : ProcessDataLength} {oi oo : Word} {s : Plant}
    {t : Sys} (h : Sim j len oi oo s t) (pevs : List PEv) :
    ∃ evs, Sim j len oi oo (s.run oc j len oi oo pevs) (t.run evs) := by
  induction pevs generalizing s t with
  | nil => exact ⟨[], h⟩
  | cons e pevs ih =>
    obtain ⟨evs1, h1⟩ := h.step (oc := oc) e
    obtain ⟨evs2, h2⟩ := ih h1
    exact ⟨evs1 ++ evs2, by
      have : t.run (evs1 ++ evs2) = (t.run evs1).run evs2 := by
        simp [Sys.run, List.foldl_append]
      rw [this]
      exact h2⟩

theorem Initial.sim {cfg : CouplerConfig} {j : Nat} {len : ProcessDataLength} {oi oo : Word}
    {s : Plant} (h : s.Initial cfg j len oi oo) :
    ∃ t : Sys, t.Initial len ∧ Sim j len oi oo s t := by
  obtain ⟨f, hf1, hf2⟩ := h.out
  have hp : s.c.processors j = some (MessageProcessor.new len) := by
    obtain ⟨cm, hm, rfl, -⟩ := h.serial
    obtain ⟨-, -, ms, -, hms⟩ := new_ok h.c
    rw [hms] at hm ⊢
    simp only [initial]
    have : ms[j]? = some (Module.com cm) := hm.1
    rw [this]
    rfl
  refine ⟨⟨MessageProcessor.new len, s.cycles, f, none, s.ack, s.rxCnt, s.avail, s.rxData, s.written,
    s.received, s.seen, s.delivered, s.fresh⟩, ⟨rfl, h.cycles, hf2, rfl, h.ack, h.rxCnt, h.logs⟩,
    ⟨Inv.new h.c, h.serial, h.disjoint, hp, ((C13_success cfg).2 s.c h.c).2.2.2.2.2 _, rfl, hf1, ?_,
      rfl, rfl, rfl, rfl, rfl, rfl, rfl, rfl, rfl⟩⟩
  rw [h.pending]
  rfl

/-- Bytes of the module's transmit queue. -/
def queued (s : Plant) (j : Nat) : List Byte :=
  match s.c.processors j with
  | some p => p.outData.flatten
  | none => []

/-- Bytes of the module's receive buffer. -/
def buffered (s : Plant) (j : Nat) : List Byte :=
  match s.c.processors j with
  | some p => p.inData
  | none => []

/-- Bytes that have left the queue but have not been taken over: those of the frame in the output
image, if the device has not taken it over, and those of a new frame in an image that is not
transferred yet. -/
def inFlight (s : Plant) (len : ProcessDataLength) (oo : Word) : List Byte :=
  match outFrame len oo s.out with
  | none => []
  | some f =>
    (if f.txCnt = (s.ack + 1) % 4 then f.data else []) ++
    (match s.pending.bind (outFrame len oo) with
      | some r => if r.txCnt ≠ f.txCnt then r.data else []
      | none => [])

end Spec.Plant

/-- C62, transmit direction: for every schedule of writes, cycles, transfers and device steps,
mixed with arbitrary other calls, the bytes taken over by the device, those in the images and those
in the queue are together exactly the bytes written, in order. -/
theorem C62_transmit (oc : Bool) (cfg : CouplerConfig) (j : Nat) (len : ProcessDataLength)
    (oi oo : Word) (s : Plant) (h : s.Initial cfg j len oi oo) (evs : List PEv) :
    let r := s.run oc j len oi oo evs
    r.received ++ r.inFlight len oo ++ r.queued j = r.written ∧ r.received <+: r.written := by
  obtain ⟨t, h1, h2⟩ := h.sim
  obtain ⟨tevs, h3⟩ := h2.run (oc := oc) evs
  have h4 := C25_exactly_once len t h1 tevs
  simp only at h4 ⊢
  generalize s.run oc j len oi oo evs = r at h3
  generalize t.run tevs = u at h3 h4
  have hq : r.queued j = u.queued := by
    unfold Plant.queued Sys.queued; rw [h3.proc]
  have hf : r.inFlight len oo = u.inFlight := by
    unfold Plant.inFlight Sys.inFlight
    rw [h3.out, h3.ack]
    have hp := h3.pending
    cases h5 : r.pending with
    | none =>
      rw [h5] at hp
      cases h6 : u.pending with
      | none => rfl
      | some x => rw [h6] at hp; simp at hp
    | some img =>
      rw [h5] at hp
      cases h6 : u.pending with
      | none => rw [h6] at hp; simp at hp
      | some x =>
        rw [h6] at hp
        simp only [Option.map_some, Option.some.injEq] at hp
        simp only [Option.bind_some, hp]
  rw [hq, hf, ← h3.received, ← h3.written]
  refine ⟨h4, ?_⟩
  rw [← h4, List.append_assoc]
  exact List.prefix_append _ _

/-- C62, receive direction: the bytes read and those still buffered are together exactly the
segments the device presented, each once and in order. -/
theorem C62_receive (oc : Bool) (cfg : CouplerConfig) (j : Nat) (len : ProcessDataLength)
    (oi oo : Word) (s : Plant) (h : s.Initial cfg j len oi oo) (evs : List PEv) :
    let r := s.run oc j len oi oo evs
    r.delivered ++ r.buffered j = r.seen := by
  obtain ⟨t, h1, h2⟩ := h.sim
  obtain ⟨tevs, h3⟩ := h2.run (oc := oc) evs
  have h4 := C28_exactly_once len t h1 tevs
  simp only at h4 ⊢
  generalize s.run oc j len oi oo evs = r at h3
  generalize t.run tevs = u at h3 h4
  unfold Plant.buffered
  rw [h3.proc, ← h3.delivered, ← h3.seen]
  exact h4

/-- The example coupler and a device. -/
def exPlant : Plant :=
  { c := initial exCfg exModules, cycles := 0, out := exPo, pending := none, ack := 0, rxCnt := 0,
    avail := false, rxData := [], written := [], received := [], seen := [], delivered := [],
    fresh := true }

theorem exPlant_initial : exPlant.Initial exCfg 3 .EightBytes 0x0010#16 0x8010#16 where
  c := exCfg_new
  serial := exCfg_serial
  disjoint := exCoupler_disjoint 3
  cycles := rfl
  out := ⟨⟨false, false, false, 0, 0, false, []⟩, by decide, rfl⟩
  pending := rfl
  ack := by decide
  rxCnt := by decide
  logs := ⟨rfl, rfl, rfl, rfl, rfl⟩

/-- Eight bytes written arrive in two segments. -/
example : (exPlant.run true 3 .EightBytes 0x0010#16 0x8010#16
    [.start exPi, .finish, .start exPi, .finish, .write [0#8, 1#8, 2#8, 3#8, 4#8, 5#8, 6#8, 7#8],
     .start exPi, .finish, .take, .start [0#16, 0x0020#16, 0#16, 0#16, 0#16], .finish,
     .take]).received = [0#8, 1#8, 2#8, 3#8, 4#8, 5#8, 6#8, 7#8] := by decide +kernel

end Ur20
