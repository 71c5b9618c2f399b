import Verif.Spec.Failure
import Verif.Props.Success

/-!
# Failing cycles: C77, C78
-/

namespace Ur20

open Spec Com Coupler

theorem moduleInput_iff {oc : Bool} {pi : List Word} {t : ModuleType} {par : List Word} {m : Module}
    (hc : Module.create t par = .ok m) {i : Word} {out : Option Word} :
    (∃ vs, moduleInput oc pi m ⟨some i, out⟩ = .ok vs) ↔
      HasRegisters pi i.toNat (inputBytes t par) ∧
      (t = .UR20_1COM_232_485_422 → FrameFits pi (i.toNat / 8) (inputBytes t par)) := by
  have ha : addrPackedProcessInputData.toNat * 16 = 0 := by decide
  refine ⟨?_, fun ⟨h1, h2⟩ => moduleInput_total oc hc i out h1 h2⟩
  rintro ⟨vs, a1⟩
  simp only [moduleInput, Res.bind_eq, Res.bind_eq_ok] at a1
  obtain ⟨raw, g1, g2⟩ := a1
  have hb := (create_bytes hc).1
  have hne : m.inputByteCount ≠ 0 := by
    intro h0
    have hl := (prepareRaw_ok g1).1
    have hp := rawWords_pos m.inputByteCount
    have hraw : raw ≠ [] := by rintro rfl; simp at hl; omega
    rw [Module.processInputData_none m h0 raw hraw] at g2
    cases g2
  rw [← hb]
  refine ⟨?_, fun ht => ?_⟩
  · have := covers_of_prepareRaw (by rw [ha]; omega) hne g1
    rwa [ha, Nat.sub_zero] at this
  · obtain ⟨cm, rfl⟩ := (isSerial_type hc).2 ht
    have := frame_fits (len := cm.processDataLen) (by rw [ha]; omega) g1 (by
      intro n hn
      simp only [Module.processInputData, Com.Mod.processInputData, Res.bind_eq, Res.bind_eq_ok]
        at g2
      obtain ⟨v, hv, -⟩ := g2
      apply Nat.le_of_not_lt
      intro hlt
      rw [((C21_input _).1).2 (.inr ⟨n, hn, by omega⟩)] at hv
      cases hv)
    rwa [ha, Nat.sub_zero] at this

theorem moduleOutput_iff {oc : Bool} {po : List Word} {t : ModuleType} {par : List Word}
    {m : Module} (hc : Module.create t par = .ok m) {o : Word} {inp : Option Word}
    (hbase : outputBase ≤ o.toNat) :
    (∃ vs, moduleOutput oc po m ⟨inp, some o⟩ = .ok vs) ↔
      HasRegisters po (outBit o) (outputBytes t par) ∧
      (t = .UR20_1COM_232_485_422 → FrameFits po (outByte o) (outputBytes t par)) := by
  have hadr : addrPackedProcessOutputData.toNat * 16 = outputBase := by decide
  refine ⟨?_, fun ⟨h1, h2⟩ => moduleOutput_total oc hc o inp hbase h1 h2⟩
  rintro ⟨vs, a1⟩
  have hne := moduleOutput_has_output rfl a1
  simp only [moduleOutput, Res.bind_eq, Res.bind_eq_ok] at a1
  obtain ⟨raw, g1, g2⟩ := a1
  have hb := (create_bytes hc).2
  rw [← hb]
  refine ⟨?_, fun ht => ?_⟩
  · have := covers_of_prepareRaw (by rw [hadr]; exact hbase) hne g1
    rwa [hadr] at this
  · obtain ⟨cm, rfl⟩ := (isSerial_type hc).2 ht
    have := frame_fits (len := cm.processDataLen) (by rw [hadr]; exact hbase) g1 (by
      intro n hn
      simp only [Module.processOutputData, Com.Mod.processOutputData, Res.bind_eq,
        Res.bind_eq_ok] at g2
      obtain ⟨v, hv, -⟩ := g2
      apply Nat.le_of_not_lt
      intro hlt
      rw [((C21_output _).1).2 (.inr ⟨n, hn, by omega⟩)] at hv
      cases hv)
    rwa [hadr] at this

/-- An output offset below the output area: a panic with overflow checks, an error without. -/
theorem moduleOutput_below {oc : Bool} {po : List Word} {m : Module} {o : Word}
    {inp : Option Word} (hlow : o.toNat < outputBase)
    (hsz : oc = false → po.length ≤ 0xF800) :
    moduleOutput oc po m ⟨inp, some o⟩ = if oc then .panic else .err .bufferLength := by
  have hreg := reg_toNat o
  have hadr : addrPackedProcessOutputData.toNat = 0x800 := by decide
  have h1 : (toRegisterAddress o).1.toNat < addrPackedProcessOutputData.toNat := by
    rw [hreg, hadr]; unfold outputBase at hlow; omega
  have hp : prepareRawDataToProcess oc o addrPackedProcessOutputData m.outputByteCount po =
      if oc then .panic else .err .bufferLength := by
    unfold prepareRawDataToProcess
    generalize toRegisterAddress o = r at h1 hreg
    obtain ⟨start, bit⟩ := r
    simp only at h1 hreg ⊢
    cases oc with
    | true => simp [h1]
    | false =>
      have hl := hsz rfl
      have hs : (start - addrPackedProcessOutputData).toNat = start.toNat + 65536 - 0x800 := by
        rw [BitVec.toNat_sub, hadr]; omega
      simp only [Bool.false_and, Bool.false_eq_true, if_false, hs]
      rw [if_pos]
      split <;> omega
  simp only [moduleOutput, hp]
  cases oc <;> rfl

/-- First failure of `mapRes`. -/
theorem mapRes_panic_iff {α β : Type} {f : α → Res β} {l : List α} :
    mapRes f l = .panic ↔ ∃ (j : Nat) (a : α), l[j]? = some a ∧ f a = .panic ∧
      ∀ (k : Nat) (b : α), k < j → l[k]? = some b → ∃ y, f b = .ok y := by
  induction l with
  | nil => simp [mapRes]
  | cons x l ih =>
    simp only [mapRes_cons, Res.bind_eq_panic]
    constructor
    · rintro (h | ⟨y, hy, h | ⟨bs, -, h⟩⟩)
      · exact ⟨0, x, rfl, h, fun k b hk => absurd hk (by omega)⟩
      · obtain ⟨j, a, h1, h2, h3⟩ := ih.1 h
        refine ⟨j + 1, a, h1, h2, fun k b hk hb => ?_⟩
        cases k with
        | zero => cases hb; exact ⟨y, hy⟩
        | succ k => exact h3 k b (by omega) hb
      · cases h
    · rintro ⟨j, a, h1, h2, h3⟩
      cases j with
      | zero => cases h1; exact .inl h2
      | succ j =>
        obtain ⟨y, hy⟩ := h3 0 x (by omega) rfl
        exact .inr ⟨y, hy, .inl (ih.2 ⟨j, a, h1, h2, fun k b hk hb =>
          h3 (k + 1) b (by omega) hb⟩)⟩

theorem infos_at {c : Coupler} {j : Nat} {m : Module} {off : ModuleOffset} :
    (infos c)[j]? = some (m, off) ↔ ModuleAt c j m off := by
  unfold infos ModuleAt
  rw [List.getElem?_zip_eq_some]

theorem decode_inputs {oc : Bool} {cfg : CouplerConfig} {c : Coupler}
    (hr : ReachableFrom oc cfg c) (pi : List Word) :
    (∃ ins, processInputData oc (infos c) pi = .ok ins) ↔ InputsPresent cfg pi := by
  unfold processInputData
  rw [mapRes_ok_iff]
  constructor
  · intro h j t par o i hcfg hni
    obtain ⟨m, hm, hc⟩ := configured_at hr hcfg
    have := h _ (List.mem_of_getElem? (infos_at.2 hm))
    rw [wordToOffset_some.2 ⟨hni, rfl⟩] at this
    exact (moduleInput_iff hc).1 this
  · rintro h ⟨m, off⟩ he
    obtain ⟨j, hj⟩ := List.mem_iff_getElem?.1 he
    obtain ⟨t, par, o, i, hcfg, hc, rfl⟩ := reachable_at hr (infos_at.1 hj)
    simp only
    cases hi : wordToOffset i with
    | none => exact ⟨_, rfl⟩
    | some v =>
      obtain ⟨hni, rfl⟩ := wordToOffset_some.1 hi
      exact (moduleInput_iff hc).2 (h j t par o v hcfg hni)

theorem decode_output_at {oc : Bool} {cfg : CouplerConfig} {c : Coupler}
    (hr : ReachableFrom oc cfg c) {po : List Word}
    (hsz : oc = false → po.length ≤ 0xF800) {j : Nat} {m : Module} {off : ModuleOffset}
    (hm : ModuleAt c j m off) :
    (∃ vs, moduleOutput oc po m off = .ok vs) ↔ OutputPresent cfg po j := by
  obtain ⟨t, par, o, i, hcfg, hc, rfl⟩ := reachable_at hr hm
  have huniq : ∀ t' par' o' i', ConfiguredAt cfg j t' par' o' i' →
      t' = t ∧ par' = par ∧ o' = o ∧ i' = i := by
    rintro t' par' o' i' ⟨h1, h2, h3, h4⟩
    obtain ⟨g1, g2, g3, g4⟩ := hcfg
    rw [g1] at h1; rw [g2] at h2; rw [g3] at h3; rw [g4] at h4
    cases h1; cases h2; cases h3; cases h4
    exact ⟨rfl, rfl, rfl, rfl⟩
  cases ho : wordToOffset o with
  | none =>
    refine ⟨fun _ t' par' o' i' h' hno => ?_, fun _ => ⟨_, rfl⟩⟩
    obtain ⟨-, -, rfl, -⟩ := huniq _ _ _ _ h'
    rw [wordToOffset_some.2 ⟨hno, rfl⟩] at ho
    cases ho
  | some v =>
    obtain ⟨hno, rfl⟩ := wordToOffset_some.1 ho
    by_cases hb : outputBase ≤ v.toNat
    · rw [moduleOutput_iff hc hb]
      constructor
      · intro h t' par' o' i' h' _
        obtain ⟨rfl, rfl, rfl, rfl⟩ := huniq _ _ _ _ h'
        exact ⟨hb, h⟩
      · intro h
        exact (h t par v i hcfg hno).2
    · rw [moduleOutput_below (by omega) hsz]
      constructor
      · rintro ⟨vs, h⟩
        split at h <;> cases h
      · intro h
        exact absurd (h t par v i hcfg hno).1 hb

theorem decode_outputs {oc : Bool} {cfg : CouplerConfig} {c : Coupler}
    (hr : ReachableFrom oc cfg c) {po : List Word}
    (hsz : oc = false → po.length ≤ 0xF800) :
    (∃ outs, processOutputData oc (infos c) po = .ok outs) ↔ ∀ j, OutputPresent cfg po j := by
  unfold processOutputData
  rw [mapRes_ok_iff]
  constructor
  · intro h j t par o i hcfg hno
    obtain ⟨m, hm, hc⟩ := configured_at hr hcfg
    exact (decode_output_at hr hsz hm).1 (h _ (List.mem_of_getElem? (infos_at.2 hm)))
      t par o i hcfg hno
  · rintro h ⟨m, off⟩ he
    obtain ⟨j, hj⟩ := List.mem_iff_getElem?.1 he
    exact (decode_output_at hr hsz (infos_at.1 hj)).2 (h j)

theorem processInputData_coupler_ne_panic (oc : Bool) (l : List (Module × ModuleOffset))
    (pi : List Word) : processInputData oc l pi ≠ .panic :=
  mapRes_ne_panic fun _ _ => moduleInput_ne_panic _ _ _ _

/-- Once both images are decoded a cycle does not panic. -/
theorem encode_ne_panic {oc : Bool} {c : Coupler} (hi : c.Inv) {pi po : List Word}
    {ins outs : List (List ChannelValue)} (h1 : processInputData oc (infos c) pi = .ok ins)
    (h2 : processOutputData oc (infos c) po = .ok outs) : (c.next oc pi po).2 ≠ .panic := by
  obtain ⟨st, rs, h3⟩ := hi.cycle_ok h1 h2
  generalize hn : c.next oc pi po = x
  obtain ⟨c', r⟩ := x
  simp only [(Coupler.next_done h1 h2 h3 hn).2]
  unfold processOutputValues
  split
  · simp
  · refine outputLoop_ne_panic _ _ ?_
    rintro ⟨⟨m, off⟩, vs⟩ he o ho
    obtain ⟨j, hj⟩ := List.mem_iff_getElem?.1 he
    obtain ⟨hj1, -⟩ := List.getElem?_zip_eq_some.1 hj
    obtain ⟨outV, -, hv⟩ := mapRes_getElem? h2 hj1
    exact moduleOutput_has_output ho hv

/-- C77: exactly when a cycle panics: overflow checks are on, the input image is complete, and some
module has an output offset before the output area while the registers of all modules before it are in
the output image. -/
theorem C77_panics (oc : Bool) (cfg : CouplerConfig) (c : Coupler) (hr : ReachableFrom oc cfg c)
    (pi po : List Word) :
    (c.next oc pi po).2 = .panic ↔
      oc = true ∧ InputsPresent cfg pi ∧
        ∃ j, BelowOutputs cfg j ∧ ∀ k, k < j → OutputPresent cfg po k := by
  have hi := inv_of_reachable hr
  rw [← decode_inputs hr]
  cases hoc : oc with
  | false =>
    subst hoc
    simp only [Bool.false_eq_true, false_and, iff_false]
    exact C43_no_panic_partial false cfg c hr pi po (by simp)
  | true =>
    subst hoc
    have key : (c.next true pi po).2 = .panic ↔ (∃ ins, processInputData true (infos c) pi = .ok ins) ∧
        processOutputData true (infos c) po = .panic := by
      constructor
      · intro h
        rcases next_cases true c pi po with ⟨e, h1, h2⟩ | ⟨h1, h2⟩ | ⟨ins, e, h1, h2, h3⟩ |
          ⟨ins, h1, h2, h3⟩ | ⟨ins, outs, h1, h2, h3, h4⟩ | ⟨ins, outs, st, rs, h1, h2, h3, h4⟩
        · rw [h2] at h; cases h
        · exact absurd h1 (processInputData_coupler_ne_panic _ _ _)
        · rw [h3] at h; cases h
        · exact ⟨⟨ins, h1⟩, h2⟩
        · exact absurd h (encode_ne_panic hi h1 h2)
        · exact absurd h (encode_ne_panic hi h1 h2)
      · rintro ⟨⟨ins, h1⟩, h2⟩
        rcases next_cases true c pi po with ⟨e, g1, g2⟩ | ⟨g1, g2⟩ | ⟨ins', e, g1, g2, g3⟩ |
          ⟨ins', g1, g2, g3⟩ | ⟨ins', outs, g1, g2, g3, g4⟩ | ⟨ins', outs, st, rs, g1, g2, g3, g4⟩
        · rw [h1] at g1; cases g1
        · rw [h1] at g1; cases g1
        · rw [h2] at g2; cases g2
        · rw [g3]
        · rw [h2] at g2; cases g2
        · rw [h2] at g2; cases g2
    rw [key]
    simp only [true_and]
    refine and_congr_right fun _ => ?_
    unfold processOutputData
    rw [mapRes_panic_iff]
    constructor
    · rintro ⟨j, ⟨m, off⟩, hj, hp, hb⟩
      obtain ⟨t, par, o, i, hcfg, hc, rfl⟩ := reachable_at hr (infos_at.1 hj)
      refine ⟨j, ?_, fun k hk t' par' o' i' hcfg' hno => ?_⟩
      · have hno : o ≠ noOffset := by
          rintro rfl
          simp only at hp
          rw [show wordToOffset noOffset = none from rfl] at hp
          cases hp
        refine ⟨t, par, o, i, hcfg, hno, ?_⟩
        by_contra hb
        refine moduleOutput_ne_panic true po m ⟨t, create_good hc⟩ _ (fun _ o' ho' => ?_) hp
        obtain ⟨-, rfl⟩ := wordToOffset_some.1 ho'
        omega
      · obtain ⟨m', hm', hc'⟩ := configured_at hr hcfg'
        exact (decode_output_at hr (by simp) hm').1 (hb k _ hk (infos_at.2 hm'))
          t' par' o' i' hcfg' hno
    · rintro ⟨j, ⟨t, par, o, i, hcfg, hno, hlow⟩, hb⟩
      obtain ⟨m, hm, hc⟩ := configured_at hr hcfg
      refine ⟨j, _, infos_at.2 hm, ?_, ?_⟩
      · simp only
        rw [wordToOffset_some.2 ⟨hno, rfl⟩, moduleOutput_below hlow (by simp)]
        rfl
      · rintro k ⟨m', off'⟩ hk hk'
        exact (decode_output_at hr (by simp) (infos_at.1 hk')).2 (hb k hk)

/-! ### The fate of a failed cycle -/

theorem not_decoded {oc : Bool} {c : Coupler} {pi po : List Word}
    (h : ¬ ((∃ ins, processInputData oc (infos c) pi = .ok ins) ∧
      ∃ outs, processOutputData oc (infos c) po = .ok outs)) :
    (∀ img, (c.next oc pi po).2 ≠ .ok img) ∧
    ∃ ins, (c.next oc pi po).1 = { c with inValues := ins } ∧
      ((¬ ∃ ins, processInputData oc (infos c) pi = .ok ins) → ins = c.inValues) := by
  rcases next_cases oc c pi po with ⟨e, h1, h2⟩ | ⟨h1, h2⟩ | ⟨ins, e, h1, h2, h3⟩ |
    ⟨ins, h1, h2, h3⟩ | ⟨ins, outs, h1, h2, h3, h4⟩ | ⟨ins, outs, st, rs, h1, h2, h3, h4⟩
  · rw [h2]; exact ⟨by simp, c.inValues, rfl, fun _ => rfl⟩
  · rw [h2]; exact ⟨by simp, c.inValues, rfl, fun _ => rfl⟩
  · rw [h3]; exact ⟨by simp, ins, rfl, fun hn => absurd ⟨ins, h1⟩ hn⟩
  · rw [h3]; exact ⟨by simp, ins, rfl, fun hn => absurd ⟨ins, h1⟩ hn⟩
  · exact absurd ⟨⟨ins, h1⟩, outs, h2⟩ h
  · exact absurd ⟨⟨ins, h1⟩, outs, h2⟩ h

theorem next_inValues (oc : Bool) (c : Coupler) (ins : List (List ChannelValue))
    (pi po : List Word) :
    (({ c with inValues := ins } : Coupler).next oc pi po).2 = (c.next oc pi po).2 ∧
    ∃ ins', (({ c with inValues := ins } : Coupler).next oc pi po).1 =
      { (c.next oc pi po).1 with inValues := ins' } := by
  unfold next
  simp only
  cases processInputData oc (c.modules.zip c.offsets) pi with
  | err e => exact ⟨by trivial, ins, rfl⟩
  | panic => exact ⟨by trivial, ins, rfl⟩
  | ok a =>
    simp only
    cases processOutputData oc (c.modules.zip c.offsets) po with
    | err e => exact ⟨by trivial, _, rfl⟩
    | panic => exact ⟨by trivial, _, rfl⟩
    | ok b =>
      simp only
      cases cycleLoop 0 ⟨c.write, c.processors, c.lastTxCnt⟩ (a.zip b) with
      | err e => exact ⟨by trivial, _, rfl⟩
      | panic => exact ⟨by trivial, _, rfl⟩
      | ok x => exact ⟨by trivial, _, rfl⟩

theorem apply_inValues (oc : Bool) (c : Coupler) (ins : List (List ChannelValue)) (op : COp) :
    ∃ ins', op.apply oc { c with inValues := ins } = { op.apply oc c with inValues := ins' } := by
  cases op with
  | setOutput a v =>
    refine ⟨ins, ?_⟩
    change (if (!c.isValidAddr a) = true then _ else _ : Coupler × Res Unit).1 =
      { (if (!c.isValidAddr a) = true then _ else _ : Coupler × Res Unit).1 with inValues := ins }
    cases c.isValidAddr a <;> rfl
  | next pi po => exact (next_inValues oc c ins pi po).2
  | read n len =>
    refine ⟨ins, ?_⟩
    simp only [COp.apply, Coupler.read]
    cases c.processors n with
    | none => rfl
    | some p =>
      simp only
      cases p.read len <;> rfl
  | write n buf =>
    refine ⟨ins, ?_⟩
    simp only [COp.apply, writeBytes]
    cases c.processors n <;> rfl

theorem run_inValues (oc : Bool) (c : Coupler) (ins : List (List ChannelValue)) (ops : List COp) :
    ∃ ins', runC oc { c with inValues := ins } ops = { runC oc c ops with inValues := ins' } := by
  induction ops generalizing c ins with
  | nil => exact ⟨ins, rfl⟩
  | cons op ops ih =>
    obtain ⟨ins', h⟩ := apply_inValues oc c ins op
    obtain ⟨ins'', h'⟩ := ih (op.apply oc c) ins'
    refine ⟨ins'', ?_⟩
    change runC oc (op.apply oc { c with inValues := ins }) ops = _
    rw [h, h']
    rfl

/-- C78: a cycle whose images cannot be decoded does not succeed. It keeps all pending writes and
what `outputs()` shows, and if the input image cannot be decoded it changes nothing at all. -/
theorem C78_undecodable (oc : Bool) (cfg : CouplerConfig) (c : Coupler)
    (hr : ReachableFrom oc cfg c) (pi po : List Word)
    (hsz : oc = false → po.length ≤ 0xF800)
    (h : ¬ (InputsPresent cfg pi ∧ ∀ j, OutputPresent cfg po j)) :
    (∀ img, (c.next oc pi po).2 ≠ .ok img) ∧
    (c.next oc pi po).1.write = c.write ∧ (c.next oc pi po).1.outputs = c.outputs ∧
    (¬ InputsPresent cfg pi → (c.next oc pi po).1 = c) := by
  rw [← decode_inputs hr, ← decode_outputs hr hsz] at h
  obtain ⟨h1, ins, h2, h3⟩ := not_decoded h
  rw [h2]
  refine ⟨h1, rfl, rfl, fun hn => ?_⟩
  rw [← decode_inputs hr] at hn
  rw [h3 hn]

/-- C78: such a cycle leaves no trace: after any further calls, cycles return, `outputs()` shows and
readers deliver the same as if it had not taken place. -/
theorem C78_no_trace (oc : Bool) (cfg : CouplerConfig) (c : Coupler)
    (hr : ReachableFrom oc cfg c) (pi po : List Word)
    (hsz : oc = false → po.length ≤ 0xF800)
    (h : ¬ (InputsPresent cfg pi ∧ ∀ j, OutputPresent cfg po j)) (ops : List COp) :
    (runC oc c (.next pi po :: ops)).outputs = (runC oc c ops).outputs ∧
    (∀ pi' po', ((runC oc c (.next pi po :: ops)).next oc pi' po').2 =
      ((runC oc c ops).next oc pi' po').2) ∧
    ∀ n len bytes, (∃ d, (runC oc c (.next pi po :: ops)).read n len = .ok (d, bytes)) ↔
      ∃ d, (runC oc c ops).read n len = .ok (d, bytes) := by
  rw [← decode_inputs hr, ← decode_outputs hr hsz] at h
  obtain ⟨-, ins, h2, -⟩ := not_decoded h
  obtain ⟨ins', h4⟩ := run_inValues oc c ins ops
  have h5 : runC oc c (.next pi po :: ops) = { runC oc c ops with inValues := ins' } := by
    change runC oc (c.next oc pi po).1 ops = _
    rw [h2, h4]
  rw [h5]
  refine ⟨rfl, fun pi' po' => (next_inValues _ _ _ _ _).1, fun n len bytes => ?_⟩
  simp only [Coupler.read]
  cases (runC oc c ops).processors n with
  | none => simp
  | some p =>
    simp only
    cases p.read len <;> simp [Res.bind]

/-- A cycle whose images are decoded, module by module; the encoding may fail. -/
theorem decoded_module {oc : Bool} {c : Coupler} (hi : c.Inv) {pi po : List Word}
    {ins outs : List (List ChannelValue)} (h1 : processInputData oc (infos c) pi = .ok ins)
    (h2 : processOutputData oc (infos c) po = .ok outs) {j : Nat} {m : Module} {off : ModuleOffset}
    (hm : ModuleAt c j m off) :
    ∃ inV outV st1 r lt, moduleInput oc pi m off = .ok inV ∧ moduleOutput oc po m off = .ok outV ∧
      moduleStep j ⟨c.write, c.processors, lt⟩ inV outV = .ok (st1, r) ∧
      (c.next oc pi po).1.inputs[j]? = some r.inV ∧
      (c.next oc pi po).1.outputs[j]? = some r.outV ∧
      (∀ a : Address, a.module = j → (c.next oc pi po).1.write a = st1.write a) ∧
      (c.next oc pi po).1.processors j = st1.processors j := by
  obtain ⟨st, rs, h3⟩ := hi.cycle_ok h1 h2
  generalize hn : c.next oc pi po = x
  obtain ⟨c', r'⟩ := x
  simp only [(Coupler.next_done h1 h2 h3 hn).1]
  obtain ⟨inV, hi1, hi2⟩ := mapRes_getElem? h1 (infos_getElem? hm)
  obtain ⟨outV, ho1, ho2⟩ := mapRes_getElem? h2 (infos_getElem? hm)
  obtain ⟨h6, h7, h8, h9, h10⟩ := cycleLoop_spec h3
  obtain ⟨st1, r, hr, hstep, hw, hp⟩ := h10 j inV outV (by
    rw [List.getElem?_zip_eq_some]; exact ⟨hi1, ho1⟩)
  rw [Nat.zero_add] at hstep hw hp
  exact ⟨inV, outV, st1, r, _, hi2, ho2, hstep, by simp [inputs, after, hr],
    by simp [outputs, after, hr], hw, hp⟩

/-- C78: a cycle whose images can be decoded uses up the pending writes of all modules, whether it
then succeeds or fails to encode a value. Only a serial module that lacks one of its offsets keeps
its pending write. -/
theorem C78_consumed (oc : Bool) (cfg : CouplerConfig) (c : Coupler)
    (hr : ReachableFrom oc cfg c) (pi po : List Word)
    (hin : InputsPresent cfg pi) (hout : ∀ j, OutputPresent cfg po j) :
    (c.next oc pi po).2 ≠ .panic ∧
    ∀ a, (DetachedSerial cfg a.module → (c.next oc pi po).1.write a = c.write a) ∧
      (¬ DetachedSerial cfg a.module → (c.next oc pi po).1.write a = none) := by
  have hi := inv_of_reachable hr
  obtain ⟨ins, h1⟩ := (decode_inputs hr pi).2 hin
  obtain ⟨outs, h2⟩ : ∃ outs, processOutputData oc (infos c) po = .ok outs := by
    unfold processOutputData
    rw [mapRes_ok_iff]
    rintro ⟨m, off⟩ he
    obtain ⟨j, hj⟩ := List.mem_iff_getElem?.1 he
    obtain ⟨t, par, o, i, hcfg, hc, rfl⟩ := reachable_at hr (infos_at.1 hj)
    simp only
    cases ho : wordToOffset o with
    | none => exact ⟨_, rfl⟩
    | some v =>
      obtain ⟨hno, rfl⟩ := wordToOffset_some.1 ho
      obtain ⟨g1, g2⟩ := hout j t par v i hcfg hno
      exact (moduleOutput_iff hc g1).2 g2
  refine ⟨encode_ne_panic hi h1 h2, fun a => ?_⟩
  have hi' := hi.next oc pi po
  cases hma : c.modules[a.module]? with
  | none =>
    have e1 : c.write a = none := by
      by_contra hw
      have := hi.valid a hw
      simp [isValidAddr, hma] at this
    have e2 : (c.next oc pi po).1.write a = none := by
      by_contra hw
      have := hi'.valid a hw
      simp [isValidAddr, (next_static oc c pi po).1, hma] at this
    rw [e1, e2]
    exact ⟨fun _ => rfl, fun _ => rfl⟩
  | some m =>
    obtain ⟨off, hat⟩ := hi.moduleAt hma
    obtain ⟨t, par, o, i, hcfg, hc, rfl⟩ := reachable_at hr hat
    obtain ⟨inV, outV, st1, r, lt, d1, d2, d3, -, -, d4, -⟩ := decoded_module hi h1 h2 hat
    rw [d4 a rfl]
    by_cases hs : IsSerial m
    · obtain ⟨cm, rfl⟩ := hs
      have ht := (isSerial_type hc).1 ⟨cm, rfl⟩
      subst ht
      obtain ⟨p, hp⟩ := hi.com _ _ hma
      have hl : inV.length = 1 := moduleInput_length d1 (by simp)
      have hlo : outV.length = 1 := moduleOutput_length d2
      have hval : ∀ b : Address, b.module = a.module → b.channel ≠ 0 → c.write b = none := by
        intro b hb hb0
        by_contra hw
        have := hi.valid b hw
        have hcc : (Module.com cm).moduleType.channelCount = 1 := rfl
        simp only [isValidAddr, hb, hma, decide_eq_true_eq, hcc] at this
        omega
      by_cases hd : o = noOffset ∨ i = noOffset
      · have hds : DetachedSerial cfg a.module := ⟨par, o, i, hcfg, hd⟩
        have hst1 : st1.write = c.write := by
          rw [moduleStep_other hp ?_ ?_ ?_] at d3
          · cases d3; rfl
          · rcases hd with rfl | rfl
            · rw [show wordToOffset noOffset = none from rfl] at d2
              cases d2
              cases inV with
              | nil => rfl
              | cons v l => cases v <;> rfl
            · rw [show wordToOffset noOffset = none from rfl] at d1
              cases d1
              rfl
          · rintro rfl; simp at hl
          · rintro rfl; simp at hlo
        rw [hst1]
        exact ⟨fun _ => rfl, fun hn => absurd hds hn⟩
      · have hds : ¬ DetachedSerial cfg a.module := by
          rintro ⟨par', o', i', ⟨-, -, g3, g4⟩, g⟩
          obtain ⟨-, -, q3, q4⟩ := hcfg
          rw [q3] at g3; rw [q4] at g4
          cases g3; cases g4
          exact hd g
        push Not at hd
        rw [wordToOffset_some.2 ⟨hd.1, rfl⟩, wordToOffset_some.2 ⟨hd.2, rfl⟩] at d1 d2
        obtain ⟨f, rfl, -⟩ := serial_input_any d1
        obtain ⟨g, rfl, -⟩ := serial_output_any d2
        rw [moduleStep_serial hp] at d3
        cases d3
        refine ⟨fun h => absurd h hds, fun _ => ?_⟩
        simp only [remove]
        split
        · rfl
        · rename_i hne
          apply hval a rfl
          intro h0
          exact hne (by cases a; simp only at h0; rw [h0])
    · have hds : ¬ DetachedSerial cfg a.module := by
        rintro ⟨par', o', i', ⟨g1, -, -, -⟩, -⟩
        obtain ⟨q1, -, -, -⟩ := hcfg
        rw [q1] at g1
        cases g1
        exact hs ((isSerial_type hc).2 rfl)
      rw [moduleStep_plain (hi.none hma hs)] at d3
      cases d3
      refine ⟨fun h => absurd h hds, fun _ => ?_⟩
      simp only [(applyWrites_eq _ _ _ _).2]
      split
      · rfl
      · rename_i hne
        by_contra hw
        have := hi.valid a hw
        simp only [isValidAddr, hma, decide_eq_true_eq] at this
        exact hne ⟨trivial, by omega, by rw [moduleOutput_length d2]; omega⟩

/-! ### Examples -/

/-- A relay module whose output offset lies before the output area. -/
def exLow : CouplerConfig :=
  { modules := [.UR20_4RO_CO_255], offsets := [0x0000#16, 0xFFFF#16], params := [[0, 0, 0, 0]] }

theorem exLow_new : ∃ c, Coupler.new exLow = .ok c := ⟨_, rfl⟩

theorem exLow_at {j : Nat} {t : ModuleType} {par : List Word} {o i : Word}
    (h : ConfiguredAt exLow j t par o i) :
    j = 0 ∧ t = .UR20_4RO_CO_255 ∧ o = 0#16 ∧ i = noOffset ∧ par = [0, 0, 0, 0] := by
  obtain ⟨h1, h2, h3, h4⟩ := h
  obtain rfl : j = 0 := by
    have : j < 1 := (List.getElem?_eq_some_iff.1 h1).1
    omega
  cases h1; cases h2; cases h3; cases h4
  decide

/-- The hypotheses of C77 and its right-hand side hold for this coupler. -/
example : InputsPresent exLow [] ∧ BelowOutputs exLow 0 := by
  refine ⟨?_, ⟨_, _, _, _, ⟨rfl, rfl, rfl, rfl⟩, by decide, by decide⟩⟩
  · intro j t par o i h hn
    obtain ⟨rfl, rfl, rfl, rfl, rfl⟩ := exLow_at h
    exact absurd rfl hn

/-- Images without registers do not meet the hypothesis of the first two theorems of C78 … -/
example : ¬ (InputsPresent exCfg [] ∧ ∀ j, OutputPresent exCfg [] j) := by
  rintro ⟨h, -⟩
  have := (h 2 .UR20_4DI_P _ _ _ ⟨rfl, rfl, rfl, rfl⟩ (by decide)).1.2.2
  revert this
  decide

theorem exCfg_decodable : InputsPresent exCfg exPi ∧ ∀ j, OutputPresent exCfg exPo j := by
  refine ⟨ex_complete.input, fun j t par o i h hno => ⟨?_, (ex_complete.output j t par o i h hno).2⟩⟩
  rcases exCfg_at h with ⟨rfl, rfl, rfl, rfl, rfl⟩ | ⟨rfl, rfl, rfl, rfl, rfl⟩ |
    ⟨rfl, rfl, rfl, rfl, rfl⟩ | ⟨rfl, rfl, rfl, rfl, rfl⟩
  · decide
  · decide
  · exact absurd rfl hno
  · decide

/-- … and complete images meet that of the third, whether the cycle succeeds or not. -/
example :
    (∃ img, ((initial exCfg exModules).next true exPi exPo).2 = .ok img) ∧
    ((runC true (initial exCfg exModules) [.setOutput ⟨0, 2⟩ (.bytes [])]).next true
      exPi exPo).2 = .err .channelValue ∧
    ((runC true (initial exCfg exModules) [.setOutput ⟨0, 2⟩ (.bytes [])]).next true
      exPi exPo).1.write ⟨0, 2⟩ = none := ⟨⟨_, rfl⟩, rfl, rfl⟩

/-- A cycle that fails to encode can lose serial data: of nine bytes queued for transmission the
first six are gone after it, the next image carries the last three. Without the failing cycle the
next image carries the first six. -/
theorem C38_segment_lost :
    let c := runC true (initial exCfg exModules)
      [.next exPi exPo, .next exPi exPo, .write 3 [1, 2, 3, 4, 5, 6, 7, 8, 9]]
    let d := runC true c [.setOutput ⟨0, 0⟩ (.bytes [])]
    (d.next true exPi exPo).2 = .err .channelValue ∧
    (∃ img f, (c.next true exPi exPo).2 = .ok img ∧
      outFrame .EightBytes 0x8010#16 img = some f ∧ f.txCnt = 1 ∧ f.data = [1, 2, 3, 4, 5, 6]) ∧
    ∃ img f, ((d.next true exPi exPo).1.next true exPi exPo).2 = .ok img ∧
      outFrame .EightBytes 0x8010#16 img = some f ∧ f.txCnt = 1 ∧ f.data = [7, 8, 9] :=
  ⟨rfl, ⟨_, _, rfl, rfl, rfl, rfl⟩, _, _, rfl, rfl, rfl, rfl⟩

end Ur20
