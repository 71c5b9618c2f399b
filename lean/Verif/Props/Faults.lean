import Verif.Spec.Faults
import Verif.Props.Modules
import Verif.Props.Histories

/-!
# Which error a failing cycle returns: C82
-/

namespace Ur20

open Spec Com Coupler

theorem configured_unique {cfg : CouplerConfig} {j : Nat} {t t' : ModuleType} {par par' : List Word}
    {o o' i i' : Word} (h : ConfiguredAt cfg j t par o i) (h' : ConfiguredAt cfg j t' par' o' i') :
    t' = t ∧ par' = par ∧ o' = o ∧ i' = i := by
  obtain ⟨h1, h2, h3, h4⟩ := h'
  obtain ⟨g1, g2, g3, g4⟩ := h
  rw [g1] at h1; rw [g2] at h2; rw [g3] at h3; rw [g4] at h4
  cases h1; cases h2; cases h3; cases h4
  exact ⟨rfl, rfl, rfl, rfl⟩

theorem inputs_err {t : ModuleType} {par : List Word} {m : Module}
    (hc : Module.create t par = .ok m) {ws : List Word} {e : Error}
    (h : m.processInputData ws = .err e) : e = .bufferLength := by
  obtain ⟨h1, h2⟩ := C74_inputs t par m hc ws
  by_cases hd : Decodes t (inputBytes t par) ws
  · obtain ⟨vs, h3, -⟩ := h1 hd
    rw [h3] at h; cases h
  · rw [h2 hd] at h; cases h; rfl

theorem outputs_err {t : ModuleType} {par : List Word} {m : Module}
    (hc : Module.create t par = .ok m) {ws : List Word} {e : Error}
    (h : m.processOutputData ws = .err e) : e = .bufferLength := by
  obtain ⟨h1, h2⟩ := C74_outputs t par m hc ws
  by_cases hd : Decodes t (outputBytes t par) ws
  · obtain ⟨vs, h3, -⟩ := h1 hd
    rw [h3] at h; cases h
  · rw [h2 hd] at h; cases h; rfl

/-- The error of preparing and decoding the registers of a module. -/
theorem prepare_err {oc : Bool} {off addr : Word} {bytes : Nat} {data : List Word}
    {f : List Word → Res (List ChannelValue)} {e : Error}
    (hf : ∀ ws e, f ws = .err e → e = .bufferLength) (ha : addr.toNat * 16 ≤ off.toNat)
    (h : (prepareRawDataToProcess oc off addr bytes data).bind f = .err e) :
    e = decodeError data (off.toNat - addr.toNat * 16) bytes := by
  rw [prepareRaw_unfold] at h
  have hs := rawStart_eq off addr ha
  have hw : rawWords bytes = max 1 (bytes / 2) := by
    unfold rawWords; split <;> omega
  have hwp := rawWords_pos bytes
  have hmod : (off.toNat - addr.toNat * 16) % 16 = off.toNat % 16 := by omega
  generalize hstart : rawStart off addr = start at h hs
  unfold decodeError
  rw [if_neg (by simp only [Bool.and_eq_true, decide_eq_true_eq]; omega)] at h
  split at h
  · cases h
    rw [if_neg]
    omega
  · split at h
    · rw [hf _ _ h, if_neg]
      omega
    · split at h
      · rw [if_neg (by omega)]
        generalize hraw : (data.drop start).take (rawWords bytes) = raw at h
        cases raw with
        | nil =>
          simp only [shiftData] at h
          cases h
        | cons w ws => exact hf _ _ h
      · cases h
        rw [if_pos]
        omega

/-- Decoding the inputs of a module. -/
theorem input_fault {oc : Bool} {cfg : CouplerConfig} {c : Coupler}
    (hr : ReachableFrom oc cfg c) {pi : List Word} {j : Nat}
    {m : Module} {off : ModuleOffset} (hm : ModuleAt c j m off) :
    (∀ e, InputFault cfg pi j e → moduleInput oc pi m off = .err e) ∧
    ((∀ e, ¬ InputFault cfg pi j e) → ∃ vs, moduleInput oc pi m off = .ok vs) := by
  obtain ⟨t, par, o, i, hcfg, hc, rfl⟩ := reachable_at hr hm
  by_cases hni : i = noOffset
  · constructor
    · rintro e ⟨t', par', o', i', h', hn, -⟩
      obtain ⟨-, -, -, rfl⟩ := configured_unique hcfg h'
      exact absurd hni hn
    · intro _
      rw [show wordToOffset i = none by rw [hni]; rfl]
      exact ⟨_, rfl⟩
  · have hw : wordToOffset i = some i := wordToOffset_some.2 ⟨hni, rfl⟩
    have ha : addrPackedProcessInputData.toNat * 16 = 0 := by decide
    rw [hw]
    have hiff := moduleInput_iff (oc := oc) (pi := pi) (i := i) (out := wordToOffset o) hc
    constructor
    · rintro e ⟨t', par', o', i', h', -, hbad, rfl⟩
      obtain ⟨rfl, rfl, rfl, rfl⟩ := configured_unique hcfg h'
      rw [← hiff] at hbad
      cases hres : moduleInput oc pi m ⟨some i', wordToOffset o'⟩ with
      | ok vs => exact absurd ⟨vs, hres⟩ hbad
      | panic => exact absurd hres (moduleInput_ne_panic _ _ _ _)
      | err e =>
        simp only [moduleInput, Res.bind_eq] at hres
        rw [prepare_err (fun ws e => inputs_err hc) (by rw [ha]; omega) hres, ha,
          Nat.sub_zero, (create_bytes hc).1]
    · intro h
      rw [hiff]
      apply Classical.not_not.1
      intro hbad
      exact h _ ⟨t, par, o, i, hcfg, hni, hbad, rfl⟩

/-- Decoding the outputs of a module. -/
theorem output_fault {oc : Bool} {cfg : CouplerConfig} {c : Coupler}
    (hr : ReachableFrom oc cfg c) {po : List Word}
    (hsz : oc = false → po.length ≤ 0xF800) {j : Nat}
    {m : Module} {off : ModuleOffset} (hm : ModuleAt c j m off) :
    (∀ e, OutputFault cfg po j e → moduleOutput oc po m off = .panic ∨
      moduleOutput oc po m off = .err e) ∧
    ((∀ e, ¬ OutputFault cfg po j e) → ∃ vs, moduleOutput oc po m off = .ok vs) := by
  obtain ⟨t, par, o, i, hcfg, hc, rfl⟩ := reachable_at hr hm
  by_cases hno : o = noOffset
  · constructor
    · rintro e ⟨t', par', o', i', h', hn, -⟩
      obtain ⟨-, -, rfl, -⟩ := configured_unique hcfg h'
      exact absurd hno hn
    · intro _
      rw [show wordToOffset o = none by rw [hno]; rfl]
      exact ⟨_, rfl⟩
  · have hw : wordToOffset o = some o := wordToOffset_some.2 ⟨hno, rfl⟩
    have ha : addrPackedProcessOutputData.toNat * 16 = outputBase := by decide
    rw [hw]
    constructor
    · rintro e ⟨t', par', o', i', h', -, hbad, rfl⟩
      obtain ⟨rfl, rfl, rfl, rfl⟩ := configured_unique hcfg h'
      by_cases hb : o'.toNat < outputBase
      · rw [moduleOutput_below hb hsz, if_pos hb]
        cases oc
        · exact .inr rfl
        · exact .inl rfl
      · have hb' : outputBase ≤ o'.toNat := by omega
        have hiff := moduleOutput_iff (oc := oc) (po := po) (inp := wordToOffset i') hc hb'
        rw [if_neg hb]
        have hbad' : ¬ ∃ vs, moduleOutput oc po m ⟨wordToOffset i', some o'⟩ = .ok vs := by
          rw [hiff]
          exact fun h => hbad ⟨hb', h⟩
        cases hres : moduleOutput oc po m ⟨wordToOffset i', some o'⟩ with
        | ok vs => exact absurd ⟨vs, hres⟩ hbad'
        | panic => exact .inl rfl
        | err e =>
          right
          simp only [moduleOutput, Res.bind_eq] at hres
          rw [prepare_err (fun ws e => outputs_err hc) (by rw [ha]; exact hb') hres, ha,
            (create_bytes hc).2]
          rfl
    · intro h
      apply Classical.not_not.1
      intro hbad
      refine h _ ⟨t, par, o, i, hcfg, hno, ?_, rfl⟩
      rintro ⟨hb, hcov⟩
      exact hbad ((moduleOutput_iff hc hb).2 hcov)

/-- Encoding the values of a module. -/
theorem encode_fault {oc : Bool} {cfg : CouplerConfig} {c : Coupler}
    (hr : ReachableFrom oc cfg c) {pi po : List Word}
    (hd : Decodable cfg pi po) {j : Nat} {t : ModuleType} {par : List Word} {o i : Word}
    (hcfg : ConfiguredAt cfg j t par o i) (hno : o ≠ noOffset) {m : Module}
    (hm : ModuleAt c j m ⟨wordToOffset i, wordToOffset o⟩) (hc : Module.create t par = .ok m)
    {inV outV : List ChannelValue}
    (hin : moduleInput oc pi m ⟨wordToOffset i, wordToOffset o⟩ = .ok inV)
    (hout : moduleOutput oc po m ⟨wordToOffset i, wordToOffset o⟩ = .ok outV)
    {lt : Nat} {st : LoopState} {r : ModuleResult}
    (hstep : moduleStep j ⟨c.write, c.processors, lt⟩ inV outV = .ok (st, r)) :
    (ValuesFit t o c.write po j → ∃ d, m.processOutputValues r.nextV = .ok d) ∧
    (¬ ValuesFit t o c.write po j → m.processOutputValues r.nextV = .err .channelValue) := by
  have hi := inv_of_reachable hr
  obtain ⟨hbase, hcov, -⟩ := hd.2 j t par o i hcfg hno
  constructor
  · rintro ⟨h1, h2⟩
    exact module_encode_at hr hno hbase hcov.1 h1 (fun ch us ht => h2 ht ch us) hm hc hin hout hstep
  · intro hbad
    have ht : t ≠ .UR20_1COM_232_485_422 := by
      rintro rfl
      exact hbad ⟨fun _ _ _ => trivial, fun h => by cases h⟩
    have hs : ¬ IsSerial m := by rw [isSerial_type hc]; exact ht
    have hne : outputBytes t par ≠ 0 := by have := hcov.1; omega
    obtain ⟨g1, g2⟩ := C75_outputs t par m hc ht hne r.nextV
    refine g2 fun hacc => hbad ?_
    obtain ⟨d, hdd, -⟩ := g1 hacc
    rw [moduleStep_plain (hi.none hm.1 hs)] at hstep
    cases hstep
    simp only [(applyWrites_eq _ _ _ _).1, Nat.zero_add] at hdd
    rw [wordToOffset_some.2 ⟨hno, rfl⟩] at hout
    simp only [moduleOutput, Res.bind_eq, Res.bind_eq_ok] at hout
    obtain ⟨raw, e1, e2⟩ := hout
    obtain ⟨r1, r2, r3⟩ := prepareRaw_ok e1
    have hb := (create_bytes hc).2
    obtain ⟨q1, q2⟩ := plain_encode_conv hc hs (by rw [hb]; exact hne) r1 e2
      (w := fun k => c.write ⟨j, k⟩) hdd
    refine ⟨fun ch v hw => ?_, fun htt ch us hch hw f1 => ?_⟩
    · refine q1 ch v ?_ hw
      have hv := hi.valid ⟨j, ch⟩ (by rw [hw]; simp)
      unfold isValidAddr at hv
      rw [hm.1] at hv
      simpa using hv
    · have hadr : addrPackedProcessOutputData.toNat * 16 = outputBase := by decide
      have h12 : m.outputByteCount = 12 := by rw [hb, htt]; rfl
      rw [h12] at e1 r1
      rw [show rawWords 12 = 6 by decide] at r1
      have e3 : raw[2 * ch]? = some (raw[2 * ch]'(by omega)) := List.getElem?_eq_getElem _
      have e4 : raw[2 * ch + 1]? = some (raw[2 * ch + 1]'(by omega)) := List.getElem?_eq_getElem _
      have hpr := presetAt_raw e1 (by rw [hadr]; exact hbase) hch e3 e4
      rw [hadr] at hpr
      change presetAt po (outByte o + 4 * ch) = _ at hpr
      rw [hpr] at f1
      cases f1
      exact q2 htt ch _ _ hch hw e3 e4

theorem encode_fault_first {oc : Bool} {cfg : CouplerConfig} {c : Coupler}
    (hr : ReachableFrom oc cfg c) {pi po : List Word}
    (hd : Decodable cfg pi po) {e : Error}
    (hf : FirstFault (EncodeFault cfg c.write po) e) : (c.next oc pi po).2 = .err e := by
  have hi := inv_of_reachable hr
  obtain ⟨ins, outs, h1, h2⟩ := decodable_ok (oc := oc) hr hd
  obtain ⟨st, rs, h3⟩ := hi.cycle_ok h1 h2
  obtain ⟨hlen, -, -, -, hmod⟩ := cycleLoop_spec h3
  have l1 := mapRes_length h1
  have l2 := mapRes_length h2
  rw [List.length_zip] at hlen
  have hfin := Coupler.next_done h1 h2 h3 (c' := (c.next oc pi po).1) (r := (c.next oc pi po).2) rfl
  rw [hfin.2]
  unfold processOutputValues
  have hl : (infos c).length = (rs.map (·.nextV)).length := by rw [List.length_map]; omega
  rw [if_neg (by omega)]
  -- the result of every module
  have hstep : ∀ (k : Nat) (m : Module) (off : ModuleOffset) (o : Word), ModuleAt c k m off →
      off.output = some o → ∃ vs t par i, (rs.map (·.nextV))[k]? = some vs ∧
        ConfiguredAt cfg k t par o i ∧ o ≠ noOffset ∧ m.outputByteCount ≠ 0 ∧
        (ValuesFit t o c.write po k → ∃ d, m.processOutputValues vs = .ok d) ∧
        (¬ ValuesFit t o c.write po k → m.processOutputValues vs = .err .channelValue) := by
    intro k m off o hm ho
    obtain ⟨inV, hi1, hi2⟩ := mapRes_getElem? h1 (infos_getElem? hm)
    obtain ⟨outV, ho1, ho2⟩ := mapRes_getElem? h2 (infos_getElem? hm)
    obtain ⟨st1, r, e1, e2, -⟩ := hmod k inV outV (by
      rw [List.getElem?_zip_eq_some]; exact ⟨hi1, ho1⟩)
    rw [Nat.zero_add] at e2
    have hb := moduleOutput_has_output ho ho2
    obtain ⟨t, par, o', i, hcfg, hc, rfl⟩ := reachable_at hr hm
    simp only at ho
    obtain ⟨hno, rfl⟩ := wordToOffset_some.1 ho
    exact ⟨r.nextV, t, par, i, by rw [List.getElem?_map, e1]; rfl, hcfg, hno, hb,
      encode_fault hr hd hcfg hno hm hc hi2 ho2 e2⟩
  obtain ⟨j, ⟨t, par, o, i, hcfg, hno, hbad⟩, hfirst⟩ := hf
  obtain ⟨m, hm, hc⟩ := configured_at hr hcfg
  obtain ⟨vs, t', par', i', hvs, hcfg', -, hb, hfit, hunfit⟩ := hstep j m _ o hm
    (wordToOffset_some.2 ⟨hno, rfl⟩)
  obtain ⟨rfl, rfl, -, rfl⟩ := configured_unique hcfg hcfg'
  -- the modules before it
  have hbefore : ∃ img, outputLoop [] (((infos c).zip (rs.map (·.nextV))).take j) = .ok img := by
    have hat : ∀ (k : Nat) (x : (Module × ModuleOffset) × List ChannelValue),
        (((infos c).zip (rs.map (·.nextV))).take j)[k]? = some x →
        k < j ∧ ModuleAt c k x.1.1 x.1.2 ∧ (rs.map (·.nextV))[k]? = some x.2 := by
      intro k x hx
      rw [List.getElem?_take] at hx
      split at hx
      · obtain ⟨g1, g2⟩ := List.getElem?_zip_eq_some.1 hx
        exact ⟨by assumption, infos_at.1 g1, g2⟩
      · cases hx
    have ok : ∀ (k : Nat) (x : (Module × ModuleOffset) × List ChannelValue) (o : Word),
        (((infos c).zip (rs.map (·.nextV))).take j)[k]? = some x → x.1.2.output = some o →
        x.1.1.outputByteCount ≠ 0 ∧ (∃ d, x.1.1.processOutputValues x.2 = .ok d) ∧
          InPlace o (registersUpTo cfg k) := by
      intro k x o hx ho
      obtain ⟨hk, hmk, hvk⟩ := hat k x hx
      obtain ⟨vs, t, par, i, g1, g2, g3, g4, g5, -⟩ := hstep k _ _ o hmk ho
      rw [hvk] at g1
      cases g1
      have hfit : ValuesFit t o c.write po k := by
        apply Classical.not_not.1
        exact fun h => hfirst k hk _ ⟨t, par, o, i, g2, g3, .inl ⟨h, rfl⟩⟩
      refine ⟨g4, g5 hfit, ?_⟩
      apply Classical.not_not.1
      exact fun h => hfirst k hk _ ⟨t, par, o, i, g2, g3, .inr ⟨hfit, h, rfl⟩⟩
    rcases outputLoop_outcome [] (((infos c).zip (rs.map (·.nextV))).take j) (by
      intro x hx o ho
      obtain ⟨k, hk⟩ := List.mem_iff_getElem?.1 hx
      obtain ⟨a, b, -⟩ := ok k x o hk ho
      exact ⟨a, b⟩) with ⟨g, -⟩ | ⟨-, k, x, o, g1, g2, g3⟩
    · exact g
    · exfalso
      apply g3
      have hk := (hat k x g1).1
      rw [List.take_take, Nat.min_eq_left (by omega), wordsOf_take _ _ hl, List.length_nil,
        Nat.zero_add, registersUpTo_eq hr]
      exact (ok k x o g1 g2).2.2
  obtain ⟨img, himg⟩ := hbefore
  have hilen := outputLoop_length himg
  rw [wordsOf_take _ _ hl, registersUpTo_eq hr, List.length_nil, Nat.zero_add] at hilen
  have hz : ((infos c).zip (rs.map (·.nextV)))[j]? =
      some ((m, ⟨wordToOffset i', wordToOffset o⟩), vs) :=
    List.getElem?_zip_eq_some.2 ⟨infos_getElem? hm, hvs⟩
  have hjl := (List.getElem?_eq_some_iff.1 hz).1
  rw [← List.take_append_drop j ((infos c).zip (rs.map (·.nextV))), outputLoop_append, himg,
    List.drop_eq_getElem_cons hjl, (List.getElem?_eq_some_iff.1 hz).2]
  simp only [Res.bind, outputLoop, wordToOffset_some.2 ⟨hno, rfl⟩, Res.bind_eq]
  rcases hbad with ⟨g1, rfl⟩ | ⟨g1, g2, rfl⟩
  · rw [hunfit g1]
  · obtain ⟨d, hdd⟩ := hfit g1
    rw [hdd]
    simp only
    rw [placeWords_misplaced img o d (by rw [hilen]; exact g2)]

theorem next_input_err {oc : Bool} {c : Coupler} {pi po : List Word} {e : Error}
    (h : processInputData oc (infos c) pi = .err e) : (c.next oc pi po).2 = .err e := by
  rcases next_cases oc c pi po with ⟨e', h1, h2⟩ | ⟨h1, -⟩ | ⟨_, _, h1, -⟩ | ⟨_, h1, -⟩ |
    ⟨_, _, h1, -⟩ | ⟨_, _, _, _, h1, -⟩ <;> rw [h] at h1 <;> cases h1
  rw [h2]

theorem next_output_err {oc : Bool} {c : Coupler} {pi po : List Word} {e : Error}
    {ins : List (List ChannelValue)} (h : processInputData oc (infos c) pi = .ok ins)
    (h' : processOutputData oc (infos c) po = .err e) : (c.next oc pi po).2 = .err e := by
  rcases next_cases oc c pi po with ⟨_, h1, -⟩ | ⟨h1, -⟩ | ⟨_, _, -, h1, h2⟩ | ⟨_, -, h1, -⟩ |
    ⟨_, _, -, h1, -⟩ | ⟨_, _, _, _, -, h1, -⟩ <;> first | rw [h] at h1 | rw [h'] at h1
  all_goals cases h1
  rw [h2]

theorem next_output_panic {oc : Bool} {c : Coupler} {pi po : List Word}
    {ins : List (List ChannelValue)} (h : processInputData oc (infos c) pi = .ok ins)
    (h' : processOutputData oc (infos c) po = .panic) : (c.next oc pi po).2 = .panic := by
  rcases next_cases oc c pi po with ⟨_, h1, -⟩ | ⟨h1, -⟩ | ⟨_, _, -, h1, -⟩ | ⟨_, -, h1, h2⟩ |
    ⟨_, _, -, h1, -⟩ | ⟨_, _, _, _, -, h1, -⟩ <;> first | rw [h] at h1 | rw [h'] at h1
  all_goals cases h1
  rw [h2]

theorem input_fault_first {oc : Bool} {cfg : CouplerConfig} {c : Coupler}
    (hr : ReachableFrom oc cfg c) {pi po : List Word} {e : Error}
    (hf : FirstFault (InputFault cfg pi) e) : (c.next oc pi po).2 = .err e := by
  obtain ⟨j, hj, hfirst⟩ := hf
  have hj' := hj
  obtain ⟨t, par, o, i, hcfg, -⟩ := hj'
  obtain ⟨m, hm, hc⟩ := configured_at hr hcfg
  have h : processInputData oc (infos c) pi = .err e :=
    (mapRes_first (f := fun p : Module × ModuleOffset => moduleInput oc pi p.1 p.2) (infos_getElem? hm)
    (fun k x hk hx => (input_fault hr (infos_at.1 hx)).2 (hfirst k hk))).1 e
    ((input_fault hr hm).1 e hj)
  exact next_input_err h

theorem output_fault_first {oc : Bool} {cfg : CouplerConfig} {c : Coupler}
    (hr : ReachableFrom oc cfg c) {pi po : List Word} {e : Error}
    (hsz : oc = false → po.length ≤ 0xF800) (hin : InputsPresent cfg pi)
    (hp : (c.next oc pi po).2 ≠ .panic)
    (hf : FirstFault (OutputFault cfg po) e) : (c.next oc pi po).2 = .err e := by
  obtain ⟨j, hj, hfirst⟩ := hf
  have hj' := hj
  obtain ⟨t, par, o, i, hcfg, -⟩ := hj'
  obtain ⟨m, hm, hc⟩ := configured_at hr hcfg
  obtain ⟨ins, hins⟩ := (decode_inputs hr pi).2 hin
  have hmap := mapRes_first (f := fun p : Module × ModuleOffset => moduleOutput oc po p.1 p.2) (infos_getElem? hm)
    (fun k x hk hx => (output_fault hr hsz (infos_at.1 hx)).2 (hfirst k hk))
  rcases (output_fault hr hsz hm).1 e hj with h | h
  · exact absurd (next_output_panic hins (hmap.2 h)) hp
  · exact next_output_err hins (hmap.1 e h)

theorem firstFault_exists {fault : Nat → Error → Prop} {j : Nat} {e : Error} (h : fault j e) :
    ∃ e, FirstFault fault e := by
  induction j using Nat.strong_induction_on generalizing e with
  | _ j ih =>
    by_cases hk : ∃ k, k < j ∧ ∃ e', fault k e'
    · obtain ⟨k, hk, e', he⟩ := hk
      exact ih k hk he
    · exact ⟨e, j, h, fun k hkj e' he => hk ⟨k, hkj, e', he⟩⟩

theorem no_input_fault {cfg : CouplerConfig} {pi : List Word} :
    (∀ j e, ¬ InputFault cfg pi j e) ↔ InputsPresent cfg pi := by
  constructor
  · intro h j t par o i hcfg hni
    apply Classical.not_not.1
    exact fun hbad => h j _ ⟨t, par, o, i, hcfg, hni, hbad, rfl⟩
  · rintro h j e ⟨t, par, o, i, hcfg, hni, hbad, -⟩
    exact hbad (h j t par o i hcfg hni)

theorem no_output_fault {cfg : CouplerConfig} {po : List Word} :
    (∀ j e, ¬ OutputFault cfg po j e) ↔ ∀ j, OutputPresent cfg po j := by
  constructor
  · intro h j t par o i hcfg hno
    apply Classical.not_not.1
    exact fun hbad => h j _ ⟨t, par, o, i, hcfg, hno, hbad, rfl⟩
  · rintro h j e ⟨t, par, o, i, hcfg, hno, hbad, -⟩
    exact hbad (h j t par o i hcfg hno)

theorem no_encode_fault {cfg : CouplerConfig} {write : Address → Option ChannelValue}
    {pi po : List Word} (hd : Decodable cfg pi po) (h : ∀ j e, ¬ EncodeFault cfg write po j e) :
    CompleteImages cfg pi po ∧ Encodable cfg write po := by
  have key : ∀ j t par o i, ConfiguredAt cfg j t par o i → o ≠ noOffset →
      ValuesFit t o write po j ∧ InPlace o (registersUpTo cfg j) := by
    intro j t par o i hcfg hno
    have hfit : ValuesFit t o write po j := by
      apply Classical.not_not.1
      exact fun hbad => h j _ ⟨t, par, o, i, hcfg, hno, .inl ⟨hbad, rfl⟩⟩
    refine ⟨hfit, ?_⟩
    apply Classical.not_not.1
    exact fun hbad => h j _ ⟨t, par, o, i, hcfg, hno, .inr ⟨hfit, hbad, rfl⟩⟩
  refine ⟨⟨hd.1, fun j t par o i hcfg hno => ⟨(key j t par o i hcfg hno).2,
    (hd.2 j t par o i hcfg hno).2⟩⟩, ⟨?_, ?_⟩⟩
  · exact fun j t par o i ch v hcfg hno hw => (key j t par o i hcfg hno).1.1 ch v hw
  · exact fun j t par o i ch us hcfg hno ht hch hw e =>
      (key j t par o i hcfg hno).1.2 ht ch us hch hw e

/-- C82: which error a cycle returns. A cycle that does not panic (see C77) fails with the error of
the first module whose registers the input image lacks; if there is none, of the first module whose data
the output image lacks; if there is none, of the first module whose values cannot be written. If
there is none of these either it succeeds. -/
theorem C82_error (oc : Bool) (cfg : CouplerConfig) (c : Coupler) (hr : ReachableFrom oc cfg c)
    (pi po : List Word) (hsz : oc = false → po.length ≤ 0xF800)
    (hp : (c.next oc pi po).2 ≠ .panic) (e : Error) :
    (c.next oc pi po).2 = .err e ↔
      FirstFault (InputFault cfg pi) e ∨
      ((∀ j e', ¬ InputFault cfg pi j e') ∧ FirstFault (OutputFault cfg po) e) ∨
      ((∀ j e', ¬ InputFault cfg pi j e') ∧ (∀ j e', ¬ OutputFault cfg po j e') ∧
        FirstFault (EncodeFault cfg c.write po) e) := by
  constructor
  · intro h
    by_cases h1 : ∃ j e', InputFault cfg pi j e'
    · obtain ⟨j, e', hj⟩ := h1
      obtain ⟨e1, he1⟩ := firstFault_exists hj
      have := input_fault_first (oc := oc) (po := po) hr he1
      rw [h] at this
      cases this
      exact .inl he1
    · have h1' : ∀ j e', ¬ InputFault cfg pi j e' := fun j e' hj => h1 ⟨j, e', hj⟩
      have hin := no_input_fault.1 h1'
      right
      by_cases h2 : ∃ j e', OutputFault cfg po j e'
      · obtain ⟨j, e', hj⟩ := h2
        obtain ⟨e1, he1⟩ := firstFault_exists hj
        have := output_fault_first hr hsz hin hp he1
        rw [h] at this
        cases this
        exact .inl ⟨h1', he1⟩
      · have h2' : ∀ j e', ¬ OutputFault cfg po j e' := fun j e' hj => h2 ⟨j, e', hj⟩
        have hd : Decodable cfg pi po := ⟨hin, no_output_fault.1 h2'⟩
        right
        by_cases h3 : ∃ j e', EncodeFault cfg c.write po j e'
        · obtain ⟨j, e', hj⟩ := h3
          obtain ⟨e1, he1⟩ := firstFault_exists hj
          have := encode_fault_first hr hd he1
          rw [h] at this
          cases this
          exact ⟨h1', h2', he1⟩
        · obtain ⟨g1, g2⟩ := no_encode_fault hd fun j e' hj => h3 ⟨j, e', hj⟩
          obtain ⟨img, himg⟩ := (C69_success_iff oc cfg c hr pi po).2 ⟨g1, g2⟩
          rw [h] at himg
          cases himg
  · rintro (h | ⟨h1, h⟩ | ⟨h1, h2, h⟩)
    · exact input_fault_first hr h
    · exact output_fault_first hr hsz (no_input_fault.1 h1) hp h
    · exact encode_fault_first hr ⟨no_input_fault.1 h1, no_output_fault.1 h2⟩ h

/-- C82: so a cycle fails with no other errors than `BufferLength`, `ModuleOffset` and
`ChannelValue`. -/
theorem C82_kinds (oc : Bool) (cfg : CouplerConfig) (c : Coupler) (hr : ReachableFrom oc cfg c)
    (pi po : List Word) (hsz : oc = false → po.length ≤ 0xF800)
    (e : Error) (h : (c.next oc pi po).2 = .err e) :
    e = .bufferLength ∨ e = .moduleOffset ∨ e = .channelValue := by
  have hde : ∀ img pos n, decodeError img pos n = .bufferLength ∨
      decodeError img pos n = .moduleOffset := by
    intro img pos n
    unfold decodeError
    split <;> simp
  rcases (C82_error oc cfg c hr pi po hsz (by rw [h]; simp) e).1 h with
    ⟨j, ⟨t, par, o, i, -, -, -, rfl⟩, -⟩ | ⟨-, j, ⟨t, par, o, i, -, -, -, rfl⟩, -⟩ |
    ⟨-, -, j, ⟨t, par, o, i, -, -, ⟨-, rfl⟩ | ⟨-, -, rfl⟩⟩, -⟩
  · rcases hde pi i.toNat (inputBytes t par) with h | h <;> simp [h]
  · split
    · simp
    · rcases hde po (outBit o) (outputBytes t par) with h | h <;> simp [h]
  · simp
  · simp

/-! ### Examples -/

/-- The example coupler without input registers: the digital input module is the first one whose
data is missing. -/
example : FirstFault (InputFault exCfg []) .bufferLength ∧
    ((initial exCfg exModules).next true [] exPo).2 = .err .bufferLength := by
  refine ⟨⟨2, ⟨.UR20_4DI_P, _, _, _, ⟨rfl, rfl, rfl, rfl⟩, by decide, ?_, rfl⟩, ?_⟩, rfl⟩
  · rintro ⟨⟨-, -, h⟩, -⟩
    revert h
    decide
  · rintro k hk e ⟨t, par, o, i, h, hni, -⟩
    rcases exCfg_at h with ⟨rfl, -, -, rfl, -⟩ | ⟨rfl, -, -, rfl, -⟩ | ⟨rfl, -⟩ | ⟨rfl, -⟩
    · exact hni rfl
    · exact hni rfl
    · omega
    · omega

/-- A pending value of the wrong kind for the second module, and complete images. -/
example :
    let c := runC true (initial exCfg exModules) [.setOutput ⟨1, 2⟩ (.bytes [])]
    FirstFault (EncodeFault exCfg c.write exPo) .channelValue ∧ Decodable exCfg exPi exPo ∧
    (c.next true exPi exPo).2 = .err .channelValue := by
  refine ⟨⟨1, ⟨.UR20_8DO_P, _, _, _, ⟨rfl, rfl, rfl, rfl⟩, by decide, .inl ⟨?_, rfl⟩⟩, ?_⟩,
    exCfg_decodable, rfl⟩
  · rintro ⟨h, -⟩
    rcases h 2 (.bytes []) rfl with h | ⟨b, h⟩ <;> cases h
  · rintro k hk e ⟨t, par, o, i, h, hno, hf⟩
    rcases exCfg_at h with ⟨rfl, rfl, rfl, rfl, -⟩ | ⟨rfl, -⟩ | ⟨rfl, -⟩ | ⟨rfl, -⟩
    · rcases hf with ⟨h, -⟩ | ⟨-, h, -⟩
      · refine h ⟨fun ch v hw => ?_, fun h => by cases h⟩
        have hn : ∀ ch, (runC true (initial exCfg exModules)
            [.setOutput ⟨1, 2⟩ (.bytes [])]).write ⟨0, ch⟩ = none := by
          intro ch
          change (if (⟨0, ch⟩ : Address) = ⟨1, 2⟩ then some (.bytes []) else none) = none
          rw [if_neg (by simp)]
        rw [hn] at hw
        cases hw
      · exact h (by unfold InPlace; decide)
    · omega
    · omega
    · omega

/-- A module at bit 4 of an input register, and a digital output that leaves a gap in the output
image. -/
def exOdd : CouplerConfig :=
  { modules := [.UR20_4DI_P, .UR20_4DO_P], offsets := [0xFFFF#16, 0x0004#16, 0x8010#16, 0xFFFF#16],
    params := [List.replicate 4 0, List.replicate 4 0] }

def exGap : CouplerConfig := { exOdd with offsets := [0xFFFF#16, 0x0000#16, 0x8010#16, 0xFFFF#16] }

example :
    (∃ c, Coupler.new exOdd = .ok c ∧ (c.next true [0] [0, 0]).2 = .err .moduleOffset ∧
      (c.next true [] [0, 0]).2 = .err .bufferLength) ∧
    (∃ c, Coupler.new exGap = .ok c ∧ (c.next true [0] [0, 0]).2 = .err .moduleOffset ∧
      (c.next true [0] [0]).2 = .err .bufferLength) := ⟨⟨_, rfl, rfl, rfl⟩, ⟨_, rfl, rfl, rfl⟩⟩

end Ur20
