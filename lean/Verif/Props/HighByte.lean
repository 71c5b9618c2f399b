import Verif.Spec.HighByte
import Verif.Props.Channels

/-! # Modules of several bytes in a high byte: C45 for couplers -/

namespace Ur20

open Spec Com Coupler

/-- Registers that are just those of a module are passed to it as they are. -/
theorem prepareRaw_start (oc : Bool) {off addr : Word} (ho : off.toNat = addr.toNat * 16)
    {bytes : Nat} {raw : List Word} (hl : raw.length = rawWords bytes) :
    prepareRawDataToProcess oc off addr bytes raw = .ok raw := by
  have hs := rawStart_eq off addr (by omega)
  have hz : rawStart off addr = 0 := by rw [hs]; omega
  rw [prepareRaw_unfold, if_neg (by simp only [Bool.and_eq_true, decide_eq_true_eq]; omega),
    if_neg (by omega), if_pos (by omega), hz, List.drop_zero, List.take_of_length_le (by omega)]

/-- What a module of several bytes in a high byte gets. -/
theorem raw_highByte {oc : Bool} {off addr : Word} {bytes : Nat} {data raw : List Word}
    (ha : addr.toNat * 16 ≤ off.toNat) (h8 : off.toNat % 16 = 8) (hb : 2 ≤ bytes)
    (he : bytes % 2 = 0) (h : prepareRawDataToProcess oc off addr bytes data = .ok raw) :
    raw.length = rawWords bytes ∧ OwnBytesButLast data (off.toNat - addr.toNat * 16) bytes raw := by
  have hw : rawWords bytes = bytes / 2 := by unfold rawWords; rw [if_neg (by omega)]
  obtain ⟨g1, g2, g3⟩ := prepareRaw_ok h
  have hs := rawStart_eq off addr ha
  rcases g3 with ⟨g3, -⟩ | ⟨-, g3, g4⟩
  · omega
  refine ⟨g1, by rw [g1, hw], fun k hk => ?_, ?_⟩
  · have e := g3 k (by omega)
    obtain ⟨b, hb'⟩ : ∃ b, byteAt raw k = some b := by
      unfold byteAt
      rw [List.getElem?_eq_getElem (show k / 2 < raw.length by omega)]
      exact ⟨_, rfl⟩
    refine ⟨b, hb', ?_⟩
    rw [← hb', e, hs]
    congr 1
    omega
  · rw [← g4]
    congr 1
    omega

theorem inputBytes_even {t : ModuleType} {par : List Word} (h : 2 ≤ inputBytes t par) :
    inputBytes t par % 2 = 0 := by
  cases t <;> simp only [inputBytes] at h ⊢ <;> first | omega | (split <;> rfl)

theorem outputBytes_even {t : ModuleType} {par : List Word} (h : 2 ≤ outputBytes t par) :
    outputBytes t par % 2 = 0 := by
  cases t <;> simp only [outputBytes] at h ⊢ <;> first | omega | (split <;> rfl)

/-- C45 for `inputs()`: a module of several bytes in the high byte of a register shows what its own
bytes stand for. -/
def C45_inputs_statement : Prop :=
  ∀ (oc : Bool) (cfg : CouplerConfig) (c : Coupler), ReachableFrom oc cfg c →
    ∀ (pi po img : List Word) (c' : Coupler), c.next oc pi po = (c', .ok img) →
    ∀ (j : Nat) (t : ModuleType) (par : List Word) (o i : Word), ConfiguredAt cfg j t par o i →
    t ≠ .UR20_1COM_232_485_422 → i ≠ noOffset → i.toNat % 16 = 8 → 2 ≤ inputBytes t par →
    ∀ d, OwnBytes pi i.toNat (inputBytes t par) d →
    ∃ vs, c'.inputs[j]? = some vs ∧ ∀ ch, ch < inputChannels t → ∃ v, vs[ch]? = some v ∧
      InputShown t par d 0 ch v

/-- C45, what holds for `inputs()`: such a module shows what its own bytes stand for if the last one
is taken to be zero. -/
theorem C45_inputs_partial (oc : Bool) (cfg : CouplerConfig) (c : Coupler)
    (hr : ReachableFrom oc cfg c) (pi po img : List Word) (c' : Coupler)
    (h : c.next oc pi po = (c', .ok img))
    (j : Nat) (t : ModuleType) (par : List Word) (o i : Word) (hcfg : ConfiguredAt cfg j t par o i)
    (ht : t ≠ .UR20_1COM_232_485_422) (hi : i ≠ noOffset) (h8 : i.toNat % 16 = 8)
    (hb : 2 ≤ inputBytes t par) :
    ∃ d vs, OwnBytesButLast pi i.toNat (inputBytes t par) d ∧ c'.inputs[j]? = some vs ∧
      vs.length = inputChannels t ∧
      ∀ ch, ch < inputChannels t → ∃ v, vs[ch]? = some v ∧ InputShown t par d 0 ch v := by
  obtain ⟨m, hm, hc⟩ := configured_at hr hcfg
  have hs : ¬ IsSerial m := by rw [isSerial_type hc]; exact ht
  obtain ⟨vs, -, a1, -, a4, -⟩ := plain_shown (inv_of_reachable hr) h hm hs
  rw [wordToOffset_some.2 ⟨hi, rfl⟩] at a1
  simp only [moduleInput, Res.bind_eq, Res.bind_eq_ok] at a1
  obtain ⟨raw, g1, g2⟩ := a1
  rw [(create_bytes hc).1] at g1
  have ha : addrPackedProcessInputData.toNat * 16 = 0 := by decide
  obtain ⟨hl, hd⟩ := raw_highByte (by omega) h8 hb (inputBytes_even hb) g1
  rw [ha, Nat.sub_zero] at hd
  have hraw : moduleInput oc raw m ⟨wordToOffset 0#16, none⟩ = .ok vs := by
    rw [wordToOffset_some.2 ⟨by decide, rfl⟩]
    simp only [moduleInput, Res.bind_eq, (create_bytes hc).1]
    rw [prepareRaw_start oc (by decide) hl, Res.bind_ok, g2]
  obtain ⟨vs', e1, e2, e3⟩ := (inputs_shown hc ht hraw a4).2 (by decide) (.inl (by decide))
  exact ⟨raw, vs', hd, e1, e2, e3⟩

/-- C45 for `outputs()`: a module of several bytes in the high byte of a register shows what its own
bytes stand for. -/
def C45_outputs_statement : Prop :=
  ∀ (oc : Bool) (cfg : CouplerConfig) (c : Coupler), ReachableFrom oc cfg c →
    ∀ (pi po img : List Word) (c' : Coupler), c.next oc pi po = (c', .ok img) →
    ∀ (j : Nat) (t : ModuleType) (par : List Word) (o i : Word), ConfiguredAt cfg j t par o i →
    t ≠ .UR20_1COM_232_485_422 → o ≠ noOffset → o.toNat % 16 = 8 → 2 ≤ outputBytes t par →
    ∀ d, OwnBytes po (outBit o) (outputBytes t par) d →
    ∃ vs, c'.outputs[j]? = some vs ∧ ∀ ch, ch < outputChannels t → ∃ v, vs[ch]? = some v ∧
      OutputShown t par d 0 ch v

/-- C45, what holds for `outputs()`: such a module shows what its own bytes in the given output image
stand for if the last one is taken to be zero. -/
theorem C45_outputs_partial (oc : Bool) (cfg : CouplerConfig) (c : Coupler)
    (hr : ReachableFrom oc cfg c) (pi po img : List Word) (c' : Coupler)
    (h : c.next oc pi po = (c', .ok img))
    (j : Nat) (t : ModuleType) (par : List Word) (o i : Word) (hcfg : ConfiguredAt cfg j t par o i)
    (ht : t ≠ .UR20_1COM_232_485_422) (ho : o ≠ noOffset) (h8 : o.toNat % 16 = 8)
    (hb : 2 ≤ outputBytes t par) :
    ∃ d vs, OwnBytesButLast po (outBit o) (outputBytes t par) d ∧ c'.outputs[j]? = some vs ∧
      vs.length = outputChannels t ∧
      ∀ ch, ch < outputChannels t → ∃ v, vs[ch]? = some v ∧ OutputShown t par d 0 ch v := by
  obtain ⟨m, hm, hc⟩ := configured_at hr hcfg
  have hs : ¬ IsSerial m := by rw [isSerial_type hc]; exact ht
  obtain ⟨-, vs, -, a1, -, a4⟩ := plain_shown (inv_of_reachable hr) h hm hs
  have hbase := output_base h hm (wordToOffset_some.2 ⟨ho, rfl⟩)
  rw [wordToOffset_some.2 ⟨ho, rfl⟩] at a1
  simp only [moduleOutput, Res.bind_eq, Res.bind_eq_ok] at a1
  obtain ⟨raw, g1, g2⟩ := a1
  rw [(create_bytes hc).2] at g1
  have ha : addrPackedProcessOutputData.toNat * 16 = outputBase := by decide
  obtain ⟨hl, hd⟩ := raw_highByte (by rw [ha]; exact hbase) h8 hb (outputBytes_even hb) g1
  rw [ha] at hd
  have hraw : moduleOutput oc raw m ⟨none, wordToOffset 0x8000#16⟩ = .ok vs := by
    rw [wordToOffset_some.2 ⟨by decide, rfl⟩]
    simp only [moduleOutput, Res.bind_eq, (create_bytes hc).2]
    rw [prepareRaw_start oc (by decide) hl, Res.bind_ok, g2]
  obtain ⟨vs', e1, e2, e3⟩ := (outputs_shown hc ht hraw (fun _ => by decide) a4).2 (by decide)
    (.inl (by decide))
  rw [show outBit 0x8000#16 = 0 by decide] at e3
  exact ⟨raw, vs', hd, e1, e2, e3⟩

theorem processOutputValues_one {m : Module} {inp : Option Word} {vs : List ChannelValue}
    {d : List Word} (h : m.processOutputValues vs = .ok d) :
    processOutputValues [(m, ⟨inp, some 0x8000#16⟩)] [vs] = .ok d := by
  have hp : placeWords [] 0x8000#16 d = .ok d := rfl
  simp only [processOutputValues, List.length_singleton, ne_eq, not_true_eq_false, if_false,
    List.zip_cons_cons, List.zip_nil_left, outputLoop, h, Res.bind_eq, Res.bind_ok, hp]

/-- The registers of an analog output module before and after. -/
theorem analog_recoded {t : ModuleType} {par : List Word} {m : Module}
    (hc : Module.create t par = .ok m) {ps : List (AnalogUIRange × DataFormat)}
    (ha : analogOutputs m = some ps) (h4 : ps.length = 4) {raw d : List Word} (hl : raw.length = 4)
    {vs : List ChannelValue} {w : Nat → Option ChannelValue} (h1 : m.processOutputData raw = .ok vs)
    (h2 : m.processOutputValues (vs.mapIdx fun k v => (w k).getD v) = .ok d)
    {ch : Nat} {p : AnalogUIRange × DataFormat} (hp : ps[ch]? = some p) :
    ∃ a a' : Word, raw[ch]? = some a ∧ d[ch]? = some a' ∧
      valueToU16 ((w ch).getD (channelValue p a)) p.1 p.2 = .ok a' := by
  rw [analogOutputs_decode hc ha raw hl] at h1
  cases h1
  have hch : ch < 4 := by rw [← h4]; exact (List.getElem?_eq_some_iff.1 hp).1
  obtain ⟨a, hw⟩ : ∃ a, raw[ch]? = some a := ⟨raw[ch]'(by omega), List.getElem?_eq_getElem _⟩
  rw [analogOutputs_encode hc ha _ (by simp [hl, h4])] at h2
  obtain ⟨w', hw', he⟩ := mapRes_getElem? h2 (i := ch)
    (a := ((w ch).getD (channelValue p a), p)) (by
      rw [List.getElem?_zip_eq_some, List.getElem?_mapIdx,
        List.getElem?_zipWith_eq_some.2 ⟨a, p, hw, hp, rfl⟩]
      exact ⟨rfl, hp⟩)
  exact ⟨a, w', hw, hw', he⟩

/-- What is encoded for a module of several bytes: the pending values in place of the decoded ones. -/
theorem outputs_written {t : ModuleType} {par : List Word} {m : Module}
    (hc : Module.create t par = .ok m) (ht : t ≠ .UR20_1COM_232_485_422)
    (hb : 2 ≤ outputBytes t par) {oc : Bool} {raw d : List Word}
    {vs : List ChannelValue} {w : Nat → Option ChannelValue}
    (h0 : moduleOutput oc raw m ⟨none, some 0x8000#16⟩ = .ok vs) (hl : raw.length = outputBytes t par / 2)
    (h1 : m.processOutputData raw = .ok vs)
    (h2 : m.processOutputValues (vs.mapIdx fun k v => (w k).getD v) = .ok d)
    (hw : ∀ k v, w k = some v → Accepts t v) (ch : Nat) (hch : ch < outputChannels t) :
    OutputWritten t par raw d 0 ch (w ch) := by
  cases t
  case UR20_16DO_P =>
    have hd := do_channels (.inr (.inr (.inr (.inl rfl)))) hc
    obtain ⟨vs', e1, e2, e3⟩ := C44_decode_output oc raw m _ hd 0x8000#16 none (by decide)
      (.inr (by decide)) (by decide) (by
        rw [show raw.length = 1 by simpa [outputBytes] using hl]; decide)
    rw [h0] at e1
    cases e1
    obtain ⟨vs', b1, b2, b3⟩ := C44_encode _ _ d (processOutputValues_one (inp := none) h2) 0 (by
        intro j e e' p h0 _ hj _ _
        obtain ⟨hj, -⟩ := List.getElem?_eq_some_iff.1 hj
        simp only [List.length_singleton] at hj
        omega) m _ hd _ 0x8000#16 rfl rfl (.inr (by decide))
    cases b1
    have hz : outBit 0x8000#16 = 0 := by decide
    rw [hz] at e3 b3
    obtain ⟨b, e4, e5⟩ := e3 ch hch
    refine ⟨b, _, e4, b3 ch hch, ?_⟩
    rw [List.getElem?_mapIdx, e5]
    simp only [Option.map_some, Option.some.injEq]
    cases hwc : w ch with
    | none => cases b <;> simp
    | some v =>
      rcases hw ch v hwc with rfl | ⟨x, rfl⟩
      · simp
      · cases x <;> simp
  case UR20_4AO_UI_16 =>
    obtain ⟨ps, g1, g2, g3⟩ := ao_params hc
    obtain ⟨f, r, hp, hf, hrr⟩ := g3 ch hch
    obtain ⟨a, a', e1, e2, e3⟩ := analog_recoded hc g1 g2 (by simpa [outputBytes] using hl) h1 h2 hp
    exact ⟨a, a', f, r, by simpa using e1, by simpa using e2, hf, hrr, analog_written e3⟩
  case UR20_4AO_UI_16_DIAG =>
    obtain ⟨ps, g1, g2, g3⟩ := aoDiag_params hc
    obtain ⟨f, r, hp, hf, hrr⟩ := g3 ch hch
    obtain ⟨a, a', e1, e2, e3⟩ := analog_recoded hc g1 g2 (by simpa [outputBytes] using hl) h1 h2 hp
    exact ⟨a, a', f, r, by simpa using e1, by simpa using e2, hf, hrr, analog_written e3⟩
  case UR20_2FCNT_100 =>
    obtain ⟨fm, rfl, hfm⟩ := fcnt_params hc
    have hl' : raw.length = 6 := by simpa [outputBytes] using hl
    clear hl h0
    obtain ⟨h0, l0, h1', l1, c0, c1, rfl⟩ := length_six hl'
    rw [counter_decode] at h1
    cases h1
    simp only [List.mapIdx_cons, List.mapIdx_nil, Nat.zero_add] at h2
    rw [fcnt_encode fm hfm] at h2
    split at h2
    swap
    · cases h2
    rename_i a b ea eb
    cases h2
    obtain ⟨q0, q1⟩ := preset_of_raw (img := [h0, l0, h1', l1, c0, c1]) (p := 0)
      fun k _ => by rw [Nat.zero_add]
    obtain ⟨q0', q1'⟩ := preset_of_raw (img := [a.1, a.2.1, b.1, b.2.1, a.2.2, b.2.2]) (p := 0)
      fun k _ => by rw [Nat.zero_add]
    change ch < 2 at hch
    obtain rfl | rfl : ch = 0 ∨ ch = 1 := by omega
    · exact ⟨_, _, c0, a.2.2, q0, q0', controlOf_eq c0 _ _ ea⟩
    · exact ⟨_, _, c1, b.2.2, q1, q1', controlOf_eq c1 _ _ eb⟩
  case UR20_1COM_232_485_422 => exact absurd rfl ht
  all_goals exact absurd hb (by simp [outputBytes])

theorem offsets_length {oc : Bool} {cfg : CouplerConfig} {c : Coupler}
    (hr : ReachableFrom oc cfg c) : cfg.offsets.length = 2 * cfg.modules.length := by
  obtain ⟨c0, ops, h0, -⟩ := hr
  exact ((C13_success cfg).1.1 ⟨c0, h0⟩).2.1.symm

theorem configured_lt {cfg : CouplerConfig} {n : Nat} {t : ModuleType} {par : List Word} {o : Word}
    (h1 : cfg.modules[n]? = some t) (h2 : cfg.params[n]? = some par)
    (h3 : cfg.offsets[2 * n]? = some o) (hl : cfg.offsets.length = 2 * cfg.modules.length) :
    ∃ i, ConfiguredAt cfg n t par o i := by
  have := (List.getElem?_eq_some_iff.1 h1).1
  exact ⟨_, h1, h2, h3, List.getElem?_eq_getElem (show 2 * n + 1 < cfg.offsets.length by omega)⟩

/-- Modules without process output data take no registers. -/
theorem registersUpTo_const {cfg : CouplerConfig} (hl : cfg.offsets.length = 2 * cfg.modules.length)
    {j : Nat} (n : Nat)
    (h : ∀ k, j ≤ k → k < j + n → ∀ t par o i, ConfiguredAt cfg k t par o i →
      ¬ (o ≠ noOffset ∧ o.toNat % 16 = 0)) :
    registersUpTo cfg (j + n) = registersUpTo cfg j := by
  induction n with
  | zero => rfl
  | succ n ih =>
    rw [← Nat.add_assoc, registersUpTo, ih fun k h1 h2 => h k h1 (by omega)]
    split
    · rename_i t par o h1 h2 h3
      obtain ⟨i, hi⟩ := configured_lt h1 h2 h3 hl
      rw [if_neg (h (j + n) (by omega) (by omega) t par o i hi), Nat.add_zero]
    · rfl

/-- After a module of several bytes in a high byte there are no further output modules. -/
theorem last_output {cfg : CouplerConfig} (hl : cfg.offsets.length = 2 * cfg.modules.length)
    {pi po : List Word} (hcom : CompleteImages cfg pi po) {j : Nat} (hdis : OutputsKept cfg j)
    {t : ModuleType} {par : List Word} {o i : Word} (hcfg : ConfiguredAt cfg j t par o i)
    (ho : o ≠ noOffset) (h8 : o.toNat % 16 = 8) (hb : 2 ≤ outputBytes t par) (k : Nat) (hk : j < k) :
    ∀ t' par' o' i', ConfiguredAt cfg k t' par' o' i' → o' = noOffset := by
  induction k using Nat.strong_induction_on with
  | _ k ih =>
    intro t' par' o' i' hcfg'
    by_contra ho'
    have hreg : registersUpTo cfg k = registersUpTo cfg j := by
      have := registersUpTo_const hl (j := j) (k - j) (by
        rintro l h1 h2 t2 par2 o2 i2 hc2 ⟨h3, h4⟩
        rcases Nat.eq_or_lt_of_le h1 with rfl | h1
        · have := hc2.2.2.1
          rw [hcfg.2.2.1] at this
          cases this
          omega
        · exact h3 (ih l (by omega) h1 t2 par2 o2 i2 hc2))
      rwa [show j + (k - j) = k by omega] at this
    obtain ⟨⟨p1, p2⟩, -⟩ := hcom.output j t par o i hcfg ho
    obtain ⟨⟨p3, p4⟩, ⟨p5, -⟩, -⟩ := hcom.output k t' par' o' i' hcfg' ho'
    rw [hreg] at p4
    have hne : outputBase % 16 = 0 := by decide
    exact hdis k t par o i t' par' o' i'
      (if o'.toNat % 16 = 0 then 2 * registersUpTo cfg j else outByte o) hk hcfg hcfg' ho ho'
      (by split <;> unfold outByte <;> omega) (by split <;> unfold outByte <;> omega)
      ⟨by split <;> unfold outByte <;> omega, by split <;> unfold outByte <;> omega⟩

/-- C45 for the returned image: the bytes of a module of several bytes in the high byte of a register
are those of the pending values, and what its bytes in the given image say without one. -/
def C45_returned_statement : Prop :=
  ∀ (oc : Bool) (cfg : CouplerConfig) (c : Coupler), ReachableFrom oc cfg c →
    DisjointOutputs cfg →
    ∀ (pi po img : List Word) (c' : Coupler), c.next oc pi po = (c', .ok img) →
    ∀ (j : Nat) (t : ModuleType) (par : List Word) (o i : Word), ConfiguredAt cfg j t par o i →
    t ≠ .UR20_1COM_232_485_422 → o ≠ noOffset → o.toNat % 16 = 8 → 2 ≤ outputBytes t par →
    ∀ old, OwnBytes po (outBit o) (outputBytes t par) old →
    ∃ new, OwnBytes img (outBit o) (outputBytes t par) new ∧
      ∀ ch, ch < outputChannels t → OutputWritten t par old new 0 ch (c.write ⟨j, ch⟩)

/-- C45, what holds for the returned image: only the first byte of such a module is in it. That byte
is the first one of registers with the pending values, and without one with what the module's bytes
in the given image say if the last one is taken to be zero. -/
theorem C45_returned_partial (oc : Bool) (cfg : CouplerConfig) (c : Coupler)
    (hr : ReachableFrom oc cfg c) (j : Nat) (hdis : OutputsKept cfg j) (pi po img : List Word)
    (c' : Coupler) (h : c.next oc pi po = (c', .ok img))
    (t : ModuleType) (par : List Word) (o i : Word) (hcfg : ConfiguredAt cfg j t par o i)
    (ht : t ≠ .UR20_1COM_232_485_422) (ho : o ≠ noOffset) (h8 : o.toNat % 16 = 8)
    (hb : 2 ≤ outputBytes t par) :
    ∃ old new b, OwnBytesButLast po (outBit o) (outputBytes t par) old ∧
      (∀ ch, ch < outputChannels t → OutputWritten t par old new 0 ch (c.write ⟨j, ch⟩)) ∧
      byteAt new 0 = some b ∧ byteAt img (outByte o) = some b ∧
      img.length = outBit o / 16 + 1 := by
  have hinv := inv_of_reachable hr
  obtain ⟨m, hm, hc⟩ := configured_at hr hcfg
  have hs : ¬ IsSerial m := by rw [isSerial_type hc]; exact ht
  have hbase := output_base h hm (wordToOffset_some.2 ⟨ho, rfl⟩)
  rw [wordToOffset_some.2 ⟨ho, rfl⟩] at hm
  obtain ⟨inV, outV, st1, r, vals, -, a2, ⟨lt, a3, -⟩, -, -, -, -, a8, a9⟩ := next_module h hm
  rw [moduleStep_plain (hinv.none hm.1 hs)] at a3
  cases a3
  simp only [(applyWrites_eq _ _ _ _).1, Nat.zero_add] at a8
  obtain ⟨vs, d, e1, e2, -, -, e3⟩ := C41_own_bytes (infos c) vals img a9 j (kept_infos hr hdis)
    m _ o (infos_getElem? hm) rfl
  rw [a8] at e1
  cases e1
  simp only [moduleOutput, Res.bind_eq, Res.bind_eq_ok] at a2
  obtain ⟨raw, g1, g2⟩ := a2
  rw [(create_bytes hc).2] at g1
  have ha : addrPackedProcessOutputData.toNat * 16 = outputBase := by decide
  obtain ⟨hl, hd⟩ := raw_highByte (by rw [ha]; exact hbase) h8 hb (outputBytes_even hb) g1
  rw [ha] at hd
  have hraw : moduleOutput oc raw m ⟨none, some 0x8000#16⟩ = .ok outV := by
    simp only [moduleOutput, Res.bind_eq, (create_bytes hc).2]
    rw [prepareRaw_start oc (by decide) hl, Res.bind_ok, g2]
  obtain ⟨b, hb0⟩ : ∃ b, byteAt d 0 = some b := by
    have := (C41_layout _ _ _ a9).2.2 j m _ o (infos_getElem? hm) rfl
    obtain ⟨vs', d', f1, f2, f3, -⟩ := this
    rw [a8] at f1
    cases f1
    rw [e2] at f2
    cases f2
    rw [(create_bytes hc).2] at f3
    unfold byteAt
    rw [List.getElem?_eq_getElem (show 0 / 2 < d.length by omega)]
    exact ⟨_, rfl⟩
  have hcom := (C69_needed oc cfg c hr pi po img c' h).1
  have hlen := offsets_length hr
  refine ⟨raw, d, b, hd, fun ch hch => ?_, hb0, ?_, ?_⟩
  · exact outputs_written hc ht hb hraw hd.1 g2 e2
      (fun k v hw => pending_accepted hr h hcfg ho hw) ch hch
  · have := e3 0 (by rw [(create_bytes hc).2]; omega) fun _ => rfl
    rwa [Nat.add_zero, hb0] at this
  · obtain ⟨c2, img2, h2, hlen2⟩ := C68_success oc cfg c hr pi po hcom
      (C69_needed oc cfg c hr pi po img c' h).2
    rw [h] at h2
    cases h2
    have hj := (List.getElem?_eq_some_iff.1 hcfg.1).1
    have hreg := registersUpTo_const hlen (j := j) (cfg.modules.length - j) (by
      rintro l h1 h2 t2 par2 o2 i2 hc2 ⟨h3, h4⟩
      rcases Nat.eq_or_lt_of_le h1 with rfl | h1
      · have := hc2.2.2.1
        rw [hcfg.2.2.1] at this
        cases this
        omega
      · exact h3 (last_output hlen hcom hdis hcfg ho h8 hb l h1 t2 par2 o2 i2 hc2))
    rw [show j + (cfg.modules.length - j) = cfg.modules.length by omega] at hreg
    obtain ⟨⟨p1, p2⟩, -⟩ := hcom.output j t par o i hcfg ho
    have hne : outputBase % 16 = 0 := by decide
    rw [hlen2, hreg]
    unfold outBit
    omega

/-! ### The counterexamples

`exHigh` has a digital output module in the low byte of the first output register and a 16-channel
output module from the high byte on, a digital input module in the low byte of the first input
register and a counter from the high byte on. -/

def exHigh : CouplerConfig :=
  { modules := [.UR20_4DO_P, .UR20_16DO_P, .UR20_4DI_P, .UR20_2FCNT_100]
    offsets := [0x8000#16, 0xFFFF#16, 0x8008#16, 0xFFFF#16, 0xFFFF#16, 0x0000#16, 0xFFFF#16,
      0x0008#16]
    params := [List.replicate 4 0, [], List.replicate 4 0, [0, 0]] }

theorem exHigh_at {j : Nat} {t : ModuleType} {par : List Word} {o i : Word}
    (h : ConfiguredAt exHigh j t par o i) :
    (j = 0 ∧ t = .UR20_4DO_P ∧ o = 0x8000#16 ∧ i = noOffset ∧ par = List.replicate 4 0) ∨
    (j = 1 ∧ t = .UR20_16DO_P ∧ o = 0x8008#16 ∧ i = noOffset ∧ par = []) ∨
    (j = 2 ∧ t = .UR20_4DI_P ∧ o = noOffset ∧ i = 0#16 ∧ par = List.replicate 4 0) ∨
    (j = 3 ∧ t = .UR20_2FCNT_100 ∧ o = noOffset ∧ i = 8#16 ∧ par = [0, 0]) := by
  obtain ⟨h1, h2, h3, h4⟩ := h
  have hj : j < 4 := (List.getElem?_eq_some_iff.1 h1).1
  match j, hj with
  | 0, _ => cases h1; cases h2; cases h3; cases h4; decide
  | 1, _ => cases h1; cases h2; cases h3; cases h4; decide
  | 2, _ => cases h1; cases h2; cases h3; cases h4; decide
  | 3, _ => cases h1; cases h2; cases h3; cases h4; decide

/-- An input image in which the last byte of the counter says that its second channel is active. -/
def exHighPi : List Word := [0, 0, 0, 0, 0, 0, 0, 0, 0, 0, 1]

/-- An output image in which the upper eight channels of the 16-channel module are on. -/
def exHighPo : List Word := [0, 0xFF]

theorem exHigh_next : ∃ c c', ReachableFrom true exHigh c ∧
    c.next true exHighPi exHighPo = (c', .ok [0#16]) ∧
    c'.inputs[3]? = some [.fcntIn ⟨some 0, 0, false⟩, .fcntIn ⟨some 0, 0, false⟩] ∧
    c'.outputs[1]? = some (List.replicate 16 (.bit false)) := by
  have h : ∃ c, Coupler.new exHigh = .ok c ∧ (c.next true exHighPi exHighPo).2 = .ok [0#16] ∧
    (c.next true exHighPi exHighPo).1.inputs[3]? =
      some [.fcntIn ⟨some 0, 0, false⟩, .fcntIn ⟨some 0, 0, false⟩] ∧
    (c.next true exHighPi exHighPo).1.outputs[1]? = some (List.replicate 16 (.bit false)) :=
    ⟨_, rfl, rfl, rfl, rfl⟩
  obtain ⟨c, h1, h2, h3, h4⟩ := h
  exact ⟨c, _, ⟨c, [], h1, rfl⟩, Prod.ext rfl h2, h3, h4⟩

theorem exHigh_disjoint : DisjointOutputs exHigh := by
  refine disjointOutputs_of ?_
  intro j k t par o i t' par' o' i' p h h' ho ho' h1 h2 h3 h4
  rcases exHigh_at h with ⟨rfl, rfl, rfl, rfl, rfl⟩ | ⟨rfl, rfl, rfl, rfl, rfl⟩ |
      ⟨rfl, rfl, rfl, rfl, rfl⟩ | ⟨rfl, rfl, rfl, rfl, rfl⟩ <;>
    rcases exHigh_at h' with ⟨rfl, rfl, rfl, rfl, rfl⟩ | ⟨rfl, rfl, rfl, rfl, rfl⟩ |
      ⟨rfl, rfl, rfl, rfl, rfl⟩ | ⟨rfl, rfl, rfl, rfl, rfl⟩ <;>
    first
      | rfl
      | exact absurd rfl ho
      | exact absurd rfl ho'
      | (simp [outByte, outputBase, outputBytes] at h1 h2 h3 h4; omega)

/-- C45 is false of `inputs()`: the second channel of the counter is shown as not active. -/
theorem C45_inputs_statement_false : ¬ C45_inputs_statement := by
  intro hst
  obtain ⟨c, c', hr, h, h1, -⟩ := exHigh_next
  obtain ⟨vs, e1, e2⟩ := hst true exHigh c hr _ _ _ c' h 3 .UR20_2FCNT_100
    [0, 0] noOffset 8#16 ⟨rfl, rfl, rfl, rfl⟩ (by simp) (by decide) (by decide) (by decide)
    [0, 0, 0, 0, 0, 0, 0, 0, 0, 0x0100]
    ⟨rfl, fun k hk => by
      have hk : k < 20 := hk
      have hall : ∀ k : Fin 20, byteAt [0, 0, 0, 0, 0, 0, 0, 0, 0, 0x0100] k.val =
        byteAt exHighPi ((8#16).toNat / 8 + k.val) := by decide
      exact hall ⟨k, hk⟩⟩
  rw [h1] at e1
  cases e1
  obtain ⟨v, e3, dh, dl, nh, nl, s, -, -, -, -, e4, x, rfl, -, e5, -⟩ := e2 1 (by decide)
  cases e3
  cases e4
  revert e5
  decide

/-- C45 is false of `outputs()`: the upper eight channels of the 16-channel module are shown as
off. -/
theorem C45_outputs_statement_false : ¬ C45_outputs_statement := by
  intro hst
  obtain ⟨c, c', hr, h, -, h1⟩ := exHigh_next
  obtain ⟨vs, e1, e2⟩ := hst true exHigh c hr _ _ _ c' h 1 .UR20_16DO_P
    [] 0x8008#16 noOffset ⟨rfl, rfl, rfl, rfl⟩ (by simp) (by decide) (by decide) (by decide)
    [0xFF00#16]
    ⟨rfl, fun k hk => by
      have hk : k < 2 := hk
      match k, hk with
      | 0, _ => decide
      | 1, _ => decide⟩
  rw [h1] at e1
  cases e1
  obtain ⟨v, e3, b, e4, rfl⟩ := e2 8 (by decide)
  rw [show bitAt [0xFF00#16] (0 + 8) = some true by decide] at e4
  cases e4
  revert e3
  decide

/-- C45 is false of the returned image: it has no upper byte of the 16-channel module. -/
theorem C45_returned_statement_false : ¬ C45_returned_statement := by
  intro hst
  obtain ⟨c, c', hr, h, -, -⟩ := exHigh_next
  obtain ⟨new, ⟨e1, e2⟩, -⟩ := hst true exHigh c hr exHigh_disjoint _ _ _ c' h
    1 .UR20_16DO_P
    [] 0x8008#16 noOffset ⟨rfl, rfl, rfl, rfl⟩ (by simp) (by decide) (by decide) (by decide)
    [0xFF00#16]
    ⟨rfl, fun k hk => by
      have hk : k < 2 := hk
      match k, hk with
      | 0, _ => decide
      | 1, _ => decide⟩
  have := e2 1 (by decide)
  rw [show byteAt [0#16] (outBit 0x8008#16 / 8 + 1) = none by decide] at this
  unfold byteAt at this
  rw [List.getElem?_eq_getElem (show 1 / 2 < new.length by rw [e1]; decide)] at this
  cases this

/-- The hypotheses of the three partial theorems hold in the same cycle. -/
example : ∃ c c', ReachableFrom true exHigh c ∧ c.next true exHighPi exHighPo = (c', .ok [0#16]) ∧
    DisjointOutputs exHigh ∧ ConfiguredAt exHigh 3 .UR20_2FCNT_100 [0, 0] noOffset 8#16 ∧
    ConfiguredAt exHigh 1 .UR20_16DO_P [] 0x8008#16 noOffset := by
  obtain ⟨c, c', hr, h, -⟩ := exHigh_next
  exact ⟨c, c', hr, h, exHigh_disjoint, ⟨rfl, rfl, rfl, rfl⟩, ⟨rfl, rfl, rfl, rfl⟩⟩

end Ur20
