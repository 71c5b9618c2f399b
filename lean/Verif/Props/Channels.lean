import Verif.Lemmas.Fields
import Verif.Props.Success

/-! # Channels of a configured coupler: C70, C71, C72, C73 -/

namespace Ur20

open Spec Com Coupler

/-- The values of a module that is not serial, in a successful cycle. -/
theorem plain_shown {oc : Bool} {c c' : Coupler} (hi : c.Inv) {pi po img : List Word}
    (h : c.next oc pi po = (c', .ok img)) {j : Nat} {m : Module} {off : ModuleOffset}
    (hm : ModuleAt c j m off) (hs : ¬ IsSerial m) :
    ∃ inV outV, moduleInput oc pi m off = .ok inV ∧ moduleOutput oc po m off = .ok outV ∧
      c'.inputs[j]? = some inV ∧ c'.outputs[j]? = some outV := by
  obtain ⟨inV, outV, st1, r, vals, a1, a2, ⟨lt, a3, -⟩, a4, a5, -⟩ := next_module h hm
  rw [moduleStep_plain (hi.none hm.1 hs)] at a3
  cases a3
  exact ⟨inV, outV, a1, a2, a4, a5⟩

/-- The registers of a module that starts at a register. -/
theorem raw_registers {oc : Bool} {off addr : Word} {bytes : Nat} {data raw : List Word}
    (ha : addr.toNat * 16 ≤ off.toNat) (h0 : off.toNat % 16 = 0)
    (h : prepareRawDataToProcess oc off addr bytes data = .ok raw) :
    raw.length = rawWords bytes ∧
    ∀ k, k < rawWords bytes → data[(off.toNat - addr.toNat * 16) / 16 + k]? = raw[k]? := by
  obtain ⟨g1, g2, g3⟩ := prepareRaw_ok h
  rw [rawStart_eq _ _ ha] at g3
  rcases g3 with ⟨-, g3⟩ | ⟨g3, -⟩
  swap
  · omega
  refine ⟨g1, fun k hk => (register_ext ?_ ?_).symm⟩
  · rw [g3 _ (by omega)]
    congr 1
    omega
  · rw [g3 _ (by omega)]
    congr 1
    omega

theorem list_of_getElem? {α : Type} {l : List α} {n : Nat} (hl : l.length = n) {k : Nat}
    (hk : k < n) : ∃ x, l[k]? = some x :=
  ⟨_, List.getElem?_eq_getElem (by omega)⟩

/-- The values of the process input data of a module that is not serial. -/
theorem inputs_shown {oc : Bool} {t : ModuleType} {par : List Word} {m : Module}
    (hc : Module.create t par = .ok m) (ht : t ≠ .UR20_1COM_232_485_422) {pi : List Word} {i : Word}
    {out : Option Word} {vs : List ChannelValue}
    (a1 : moduleInput oc pi m ⟨wordToOffset i, out⟩ = .ok vs) {l : List (List ChannelValue)}
    {j : Nat} (a4 : l[j]? = some vs) :
    (i = noOffset → ∃ vs, l[j]? = some vs ∧ ∀ v ∈ vs, v = .none) ∧
    (i ≠ noOffset → (i.toNat % 16 = 0 ∨ inputBytes t par = 1) →
      ∃ vs, l[j]? = some vs ∧ vs.length = inputChannels t ∧
        ∀ ch, ch < inputChannels t → ∃ v, vs[ch]? = some v ∧ InputShown t par pi i.toNat ch v) := by
  have hs : ¬ IsSerial m := by rw [isSerial_type hc]; exact ht
  constructor
  · rintro rfl
    refine ⟨vs, a4, ?_⟩
    rw [show wordToOffset noOffset = none by rfl] at a1
    simp only [moduleInput, Res.ok.injEq] at a1
    subst a1
    intro v hv
    exact (List.mem_replicate.1 hv).2
  intro hni hal
  rw [wordToOffset_some.2 ⟨hni, rfl⟩] at a1
  refine ⟨vs, a4, ?_⟩
  have a1' := a1
  simp only [moduleInput, Res.bind_eq, Res.bind_eq_ok] at a1
  obtain ⟨raw, g1, g2⟩ := a1
  have ha : addrPackedProcessInputData.toNat * 16 = 0 := by decide
  have hb := (create_bytes hc).1
  have hne : m.inputByteCount ≠ 0 := by
    intro h0
    have hl := (prepareRaw_ok g1).1
    have hp := rawWords_pos m.inputByteCount
    have hraw : raw ≠ [] := by rintro rfl; simp at hl; omega
    rw [Module.processInputData_none m h0 raw hraw] at g2
    cases g2
  have hreg : ∀ n, inputBytes t par = 2 * n → 0 < n → raw.length = n ∧
      ∀ k, k < n → pi[i.toNat / 16 + k]? = raw[k]? := by
    intro n hbytes hn
    have := raw_registers (by rw [ha]; omega) (hal.resolve_right (by omega)) g1
    rw [ha, Nat.sub_zero, hb, hbytes] at this
    have hw : rawWords (2 * n) = n := by unfold rawWords; rw [if_neg (by omega)]; omega
    rwa [hw] at this
  have analog : ∀ n ps, analogInputs m = some ps → ps.length = n → inputBytes t par = 2 * n →
      0 < n → vs.length = n ∧
        ∀ (ch : Nat) p, ps[ch]? = some p → ∃ v w, vs[ch]? = some v ∧
          pi[i.toNat / 16 + ch]? = some w ∧ AnalogReading p w v := by
    intro n ps hps hl hbytes hn
    obtain ⟨r1, r2⟩ := hreg n hbytes hn
    obtain ⟨vs', e1, e2, e3⟩ := C50_inputs t par m hc ps hps raw (by omega)
    rw [g2] at e1
    cases e1
    refine ⟨by omega, fun ch p hp => ?_⟩
    have hch := (List.getElem?_eq_some_iff.1 hp).1
    obtain ⟨w, hw'⟩ := list_of_getElem? r1 (k := ch) (by omega)
    obtain ⟨v, hv, hread⟩ := e3 ch w p hw' hp
    exact ⟨v, w, hv, by rw [r2 ch (by omega), hw'], hread⟩
  have hbit : ∀ n, digitalInputs m = some n → vs.length = n ∧
      ∀ ch, ch < n → ∃ b, bitAt pi (i.toNat + ch) = some b ∧ vs[ch]? = some (.bit b) := by
    intro n hd
    obtain ⟨-, h2, h3⟩ := prepareRaw_ok g1
    rw [rawStart_eq _ _ (by rw [ha]; omega), ha] at h2
    have hp := rawWords_pos m.inputByteCount
    obtain ⟨vs', e1, e2, e3⟩ := C44_decode_input oc pi m n hd i out
      (by rcases h3 with h3 | h3 <;> omega) (by omega)
    rw [a1'] at e1
    cases e1
    exact ⟨e2, e3⟩
  have bits : (t = .UR20_4DI_P ∨ t = .UR20_8DI_P_2W) → vs.length = inputChannels t ∧
      ∀ ch, ch < inputChannels t → ∃ v, vs[ch]? = some v ∧ InputShown t par pi i.toNat ch v := by
    intro htt
    obtain ⟨e1, e2⟩ := hbit _ (di_channels htt hc)
    refine ⟨e1, fun ch hch => ?_⟩
    obtain ⟨b, h1, h2⟩ := e2 ch hch
    rcases htt with rfl | rfl <;> exact ⟨_, h2, b, h1, rfl⟩
  have ais : (t = .UR20_4AI_UI_12 ∨ t = .UR20_4AI_UI_16) → vs.length = inputChannels t ∧
      ∀ ch, ch < inputChannels t → ∃ v, vs[ch]? = some v ∧ InputShown t par pi i.toNat ch v := by
    intro htt
    obtain ⟨ps, h1, h2, h3⟩ := ai_params htt hc
    obtain ⟨e1, e2⟩ := analog 4 ps h1 h2 (by rcases htt with rfl | rfl <;> rfl)
      (by decide)
    have hn : inputChannels t = 4 := by rcases htt with rfl | rfl <;> rfl
    rw [hn]
    refine ⟨e1, fun ch hch => ?_⟩
    obtain ⟨f, r, hp, hf, hrr⟩ := h3 ch hch
    obtain ⟨v, w, hv, hw, hread⟩ := e2 ch _ hp
    refine ⟨v, hv, ?_⟩
    rcases htt with rfl | rfl <;> exact ⟨w, f, r, hw, hf, hrr, hread⟩
  cases t
  case UR20_4DI_P => exact bits (.inl rfl)
  case UR20_8DI_P_2W => exact bits (.inr rfl)
  case UR20_4AI_UI_12 => exact ais (.inl rfl)
  case UR20_4AI_UI_16 => exact ais (.inr rfl)
  case UR20_4AI_UI_16_DIAG =>
    obtain ⟨ps, h1, h2, h3⟩ := aiDiag_params hc
    obtain ⟨e1, e2⟩ := analog 4 ps h1 h2 rfl (by decide)
    refine ⟨e1, fun ch hch => ?_⟩
    obtain ⟨f, r, hp, hf, hrr⟩ := h3 ch hch
    obtain ⟨v, w, hv, hw, hread⟩ := e2 ch _ hp
    exact ⟨v, hv, w, f, r, hw, hf, hrr, hread⟩
  case UR20_8AI_I_16_DIAG_HD =>
    obtain ⟨ps, h1, h2, h3⟩ := aiI_params hc
    obtain ⟨e1, e2⟩ := analog 8 ps h1 h2 rfl (by decide)
    refine ⟨e1, fun ch hch => ?_⟩
    obtain ⟨f, r, hp, hf, hrr⟩ := h3 ch hch
    obtain ⟨v, w, hv, hw, hread⟩ := e2 ch _ hp
    exact ⟨v, hv, w, f, r, hw, hf, hrr, hread⟩
  case UR20_4AI_RTD_DIAG =>
    obtain ⟨rm, rfl, h2, h3⟩ := rtd_params hc
    obtain ⟨r1, r2⟩ := hreg 4 rfl (by decide)
    obtain ⟨vs', e1, e2, -, e3⟩ := C56_rtd _ par rm hc raw r1
    rw [g2] at e1
    cases e1
    refine ⟨e2, fun ch hch => ?_⟩
    obtain ⟨p, hp, hpar⟩ := h3 ch hch
    obtain ⟨w, hw⟩ := list_of_getElem? r1 hch
    obtain ⟨v, hv, hread⟩ := e3 ch w p hw hp
    exact ⟨v, hv, w, _, by rw [r2 ch hch, hw], hpar, hread⟩
  case UR20_4AI_TC_DIAG =>
    obtain ⟨tm, rfl, h2, h3⟩ := tc_params hc
    obtain ⟨r1, r2⟩ := hreg 4 rfl (by decide)
    obtain ⟨vs', e1, e2, e3⟩ := C57_thermocouple tm raw r1
    rw [g2] at e1
    cases e1
    refine ⟨e2, fun ch hch => ?_⟩
    obtain ⟨p, hp, hpar⟩ := h3 ch hch
    obtain ⟨w, hw⟩ := list_of_getElem? r1 hch
    obtain ⟨v, hv, hread⟩ := e3 ch w p hw hp
    exact ⟨v, hv, w, _, by rw [r2 ch hch, hw], hpar, hread⟩
  case UR20_2FCNT_100 =>
    obtain ⟨fm, rfl, h2⟩ := fcnt_params hc
    obtain ⟨r1, r2⟩ := hreg 10 rfl (by decide)
    match raw, r1 with
    | [p0h, p0l, c0h, c0l, p1h, p1l, c1h, c1l, s0, s1], _ =>
      obtain ⟨v0, v1, e1, e2, e3, e4, e5, e6, e7⟩ :=
        (C46_decode fm h2 _).2 p0h p0l c0h c0l p1h p1l c1h c1l s0 s1 rfl
      rw [g2] at e1
      cases e1
      refine ⟨rfl, fun ch hch => ?_⟩
      match ch, hch with
      | 0, _ => exact ⟨_, rfl, p0h, p0l, c0h, c0l, s0, r2 0 (by omega), r2 1 (by omega),
          r2 2 (by omega), r2 3 (by omega), r2 8 (by omega), v0, rfl, e2, e4, e6⟩
      | 1, _ => exact ⟨_, rfl, p1h, p1l, c1h, c1l, s1, r2 4 (by omega), r2 5 (by omega),
          r2 6 (by omega), r2 7 (by omega), r2 9 (by omega), v1, rfl, e3, e5, e7⟩
  case UR20_PF_O_1DI_SIL =>
    obtain rfl := sil_module hc
    obtain ⟨r1, r2⟩ := hreg 2 rfl (by decide)
    match raw, r1 with
    | [w0, w1], _ =>
      rw [(C18_safety _).2 w0 w1 rfl] at g2
      cases g2
      refine ⟨rfl, fun ch hch => ?_⟩
      match ch, hch with
      | 0, _ => exact ⟨_, rfl, w0, r2 0 (by omega), rfl⟩
  case UR20_1COM_232_485_422 => exact absurd rfl ht
  all_goals exact absurd hb (by simpa [inputBytes] using hne)

/-- C70: after a successful cycle `inputs` shows, for every module with process input data that is
not serial, the values of its registers in the given input image, decoded as the parameter words of
the module say; and no values for every module without process input data. -/
theorem C70_inputs (oc : Bool) (cfg : CouplerConfig) (c : Coupler) (hr : ReachableFrom oc cfg c)
    (pi po img : List Word) (c' : Coupler) (h : c.next oc pi po = (c', .ok img))
    (j : Nat) (t : ModuleType) (par : List Word) (o i : Word) (hcfg : ConfiguredAt cfg j t par o i)
    (ht : t ≠ .UR20_1COM_232_485_422) :
    (i = noOffset → ∃ vs, c'.inputs[j]? = some vs ∧ ∀ v ∈ vs, v = .none) ∧
    (i ≠ noOffset → (i.toNat % 16 = 0 ∨ inputBytes t par = 1) →
      ∃ vs, c'.inputs[j]? = some vs ∧ vs.length = inputChannels t ∧
        ∀ ch, ch < inputChannels t → ∃ v, vs[ch]? = some v ∧ InputShown t par pi i.toNat ch v) := by
  have hinv := inv_of_reachable hr
  obtain ⟨m, hm, hc⟩ := configured_at hr hcfg
  have hs : ¬ IsSerial m := by rw [isSerial_type hc]; exact ht
  obtain ⟨vs, -, a1, -, a4, -⟩ := plain_shown hinv h hm hs
  exact inputs_shown hc ht a1 a4

/-- The offset of a module with process output data in a successful cycle. -/
theorem output_base {oc : Bool} {c c' : Coupler} {pi po img : List Word}
    (h : c.next oc pi po = (c', .ok img)) {j : Nat} {m : Module} {off : ModuleOffset}
    (hm : ModuleAt c j m off) {o : Word} (ho : off.output = some o) : outputBase ≤ o.toNat := by
  obtain ⟨ins, outs, st, rs, -, -, -, -, himg⟩ := next_ok h
  obtain ⟨vs, d, -, -, -, hin, -⟩ := (C41_layout _ _ _ himg).2.2 j m _ o (infos_getElem? hm) ho
  unfold InPlace at hin
  exact hin.1

theorem preset_of_raw {img : List Word} {p : Nat} {h0 l0 h1 l1 c0 c1 : Word}
    (h : ∀ k, k < 6 → img[p + k]? = [h0, l0, h1, l1, c0, c1][k]?) :
    CounterPreset img p 0 (h0.toNat * 65536 + l0.toNat) c0 ∧
    CounterPreset img p 1 (h1.toNat * 65536 + l1.toNat) c1 :=
  ⟨⟨h0, l0, h 0 (by omega), h 1 (by omega), rfl, h 4 (by omega)⟩,
    ⟨h1, l1, h 2 (by omega), h 3 (by omega), rfl, h 5 (by omega)⟩⟩

theorem counter_decode (m : Fcnt.Mod) (h0 l0 h1 l1 c0 c1 : Word) :
    (Module.fcnt m).processOutputData [h0, l0, h1, l1, c0, c1] =
      .ok [.fcntOut ⟨(h0.toNat * 65536 + l0.toNat) * 1000, commandIn c0⟩,
        .fcntOut ⟨(h1.toNat * 65536 + l1.toNat) * 1000, commandIn c1⟩] :=
  fcnt_decode m h0 l0 h1 l1 c0 c1

/-- The values of the process output data of a module that is not serial. -/
theorem outputs_shown {oc : Bool} {t : ModuleType} {par : List Word} {m : Module}
    (hc : Module.create t par = .ok m) (ht : t ≠ .UR20_1COM_232_485_422) {po : List Word} {o : Word}
    {inp : Option Word} {vs : List ChannelValue}
    (a1 : moduleOutput oc po m ⟨inp, wordToOffset o⟩ = .ok vs)
    (hbase' : o ≠ noOffset → outputBase ≤ o.toNat) {l : List (List ChannelValue)}
    {j : Nat} (a4 : l[j]? = some vs) :
    (o = noOffset → ∃ vs, l[j]? = some vs ∧ ∀ v ∈ vs, v = .none) ∧
    (o ≠ noOffset → (o.toNat % 16 = 0 ∨ outputBytes t par = 1) →
      ∃ vs, l[j]? = some vs ∧ vs.length = outputChannels t ∧
        ∀ ch, ch < outputChannels t → ∃ v, vs[ch]? = some v ∧
          OutputShown t par po (outBit o) ch v) := by
  have hs : ¬ IsSerial m := by rw [isSerial_type hc]; exact ht
  constructor
  · rintro rfl
    refine ⟨vs, a4, ?_⟩
    rw [show wordToOffset noOffset = none by rfl] at a1
    simp only [moduleOutput, Res.ok.injEq] at a1
    subst a1
    intro v hv
    exact (List.mem_replicate.1 hv).2
  intro hno hal
  have ho : wordToOffset o = some o := wordToOffset_some.2 ⟨hno, rfl⟩
  have hbase := hbase' hno
  rw [ho] at a1
  refine ⟨vs, a4, ?_⟩
  have hne := moduleOutput_has_output rfl a1
  have a1' := a1
  simp only [moduleOutput, Res.bind_eq, Res.bind_eq_ok] at a1
  obtain ⟨raw, g1, g2⟩ := a1
  have ha : addrPackedProcessOutputData.toNat * 16 = outputBase := by decide
  have hb := (create_bytes hc).2
  have hreg : ∀ n, outputBytes t par = 2 * n → 0 < n → raw.length = n ∧
      ∀ k, k < n → po[outBit o / 16 + k]? = raw[k]? := by
    intro n hbytes hn
    have := raw_registers (by rw [ha]; exact hbase) (hal.resolve_right (by omega)) g1
    rw [ha, hb, hbytes] at this
    have hw : rawWords (2 * n) = n := by unfold rawWords; rw [if_neg (by omega)]; omega
    rwa [hw] at this
  have analog : ∀ ps, analogOutputs m = some ps → ps.length = 4 → outputBytes t par = 8 →
      vs.length = 4 ∧ ∀ (ch : Nat) p, ps[ch]? = some p → ∃ v w, vs[ch]? = some v ∧
          po[outBit o / 16 + ch]? = some w ∧ AnalogReading p w v := by
    intro ps hps hl hbytes
    obtain ⟨r1, r2⟩ := hreg 4 hbytes (by omega)
    obtain ⟨vs', e1, e2, e3⟩ := C50_outputs t par m hc ps hps raw (by omega)
    rw [g2] at e1
    cases e1
    refine ⟨by omega, fun ch p hp => ?_⟩
    have hch := (List.getElem?_eq_some_iff.1 hp).1
    obtain ⟨w, hw'⟩ := list_of_getElem? r1 (k := ch) (by omega)
    obtain ⟨v, hv, hread⟩ := e3 ch w p hw' hp
    exact ⟨v, w, hv, by rw [r2 ch (by omega), hw'], hread⟩
  have bits : (t = .UR20_4DO_P ∨ t = .UR20_4DO_P_2A ∨ t = .UR20_8DO_P ∨
      t = .UR20_16DO_P ∨ t = .UR20_4RO_CO_255) → vs.length = outputChannels t ∧
      ∀ ch, ch < outputChannels t → ∃ v, vs[ch]? = some v ∧
        OutputShown t par po (outBit o) ch v := by
    intro htt
    obtain ⟨-, h2, h3⟩ := prepareRaw_ok g1
    rw [rawStart_eq _ _ (by rw [ha]; exact hbase), ha] at h2
    have hp := rawWords_pos m.outputByteCount
    obtain ⟨vs', e1, e2, e3⟩ := C44_decode_output oc po m _ (do_channels htt hc) o inp
      (by rcases h3 with h3 | h3 <;> omega)
      (by rcases htt with rfl | rfl | rfl | rfl | rfl
          · exact .inl (by decide)
          · exact .inl (by decide)
          · exact .inl (by decide)
          · exact .inr (hal.resolve_right (by simp [outputBytes]))
          · exact .inl (by decide))
      hbase (by unfold outBit; omega)
    rw [a1'] at e1
    cases e1
    refine ⟨e2, fun ch hch => ?_⟩
    obtain ⟨b, h1, h2⟩ := e3 ch hch
    rcases htt with rfl | rfl | rfl | rfl | rfl <;> exact ⟨_, h2, b, h1, rfl⟩
  cases t
  case UR20_4DO_P => exact bits (by simp)
  case UR20_4DO_P_2A => exact bits (by simp)
  case UR20_8DO_P => exact bits (by simp)
  case UR20_16DO_P => exact bits (by simp)
  case UR20_4RO_CO_255 => exact bits (by simp)
  case UR20_4AO_UI_16 =>
    obtain ⟨ps, h1, h2, h3⟩ := ao_params hc
    obtain ⟨e1, e2⟩ := analog ps h1 h2 rfl
    refine ⟨e1, fun ch hch => ?_⟩
    obtain ⟨f, r, hp, hf, hrr⟩ := h3 ch hch
    obtain ⟨v, w, hv, hw, hread⟩ := e2 ch _ hp
    exact ⟨v, hv, w, f, r, hw, hf, hrr, hread⟩
  case UR20_4AO_UI_16_DIAG =>
    obtain ⟨ps, h1, h2, h3⟩ := aoDiag_params hc
    obtain ⟨e1, e2⟩ := analog ps h1 h2 rfl
    refine ⟨e1, fun ch hch => ?_⟩
    obtain ⟨f, r, hp, hf, hrr⟩ := h3 ch hch
    obtain ⟨v, w, hv, hw, hread⟩ := e2 ch _ hp
    exact ⟨v, hv, w, f, r, hw, hf, hrr, hread⟩
  case UR20_2FCNT_100 =>
    obtain ⟨fm, rfl, h2⟩ := fcnt_params hc
    obtain ⟨r1, r2⟩ := hreg 6 rfl (by decide)
    obtain ⟨h0, l0, h1, l1, c0, c1, rfl⟩ := length_six r1
    rw [counter_decode] at g2
    cases g2
    refine ⟨rfl, fun ch hch => ?_⟩
    obtain ⟨p0, p1⟩ := preset_of_raw r2
    change ch < 2 at hch
    obtain rfl | rfl : ch = 0 ∨ ch = 1 := by omega
    · exact ⟨_, rfl, _, c0, p0, rfl⟩
    · exact ⟨_, rfl, _, c1, p1, rfl⟩
  case UR20_1COM_232_485_422 => exact absurd rfl ht
  all_goals exact absurd hb (by simpa [outputBytes] using hne)

/-- C71: after a successful cycle `outputs` shows, for every module with process output data that is
not serial, the values of its registers in the given output image, decoded as the parameter words of
the module say; and no values for every module without process output data. -/
theorem C71_outputs (oc : Bool) (cfg : CouplerConfig) (c : Coupler) (hr : ReachableFrom oc cfg c)
    (pi po img : List Word) (c' : Coupler) (h : c.next oc pi po = (c', .ok img))
    (j : Nat) (t : ModuleType) (par : List Word) (o i : Word) (hcfg : ConfiguredAt cfg j t par o i)
    (ht : t ≠ .UR20_1COM_232_485_422) :
    (o = noOffset → ∃ vs, c'.outputs[j]? = some vs ∧ ∀ v ∈ vs, v = .none) ∧
    (o ≠ noOffset → (o.toNat % 16 = 0 ∨ outputBytes t par = 1) →
      ∃ vs, c'.outputs[j]? = some vs ∧ vs.length = outputChannels t ∧
        ∀ ch, ch < outputChannels t → ∃ v, vs[ch]? = some v ∧
          OutputShown t par po (outBit o) ch v) := by
  have hinv := inv_of_reachable hr
  obtain ⟨m, hm, hc⟩ := configured_at hr hcfg
  have hs : ¬ IsSerial m := by rw [isSerial_type hc]; exact ht
  obtain ⟨-, vs, -, a1, -, a4⟩ := plain_shown hinv h hm hs
  exact outputs_shown hc ht a1 (fun hno => output_base h hm (wordToOffset_some.2 ⟨hno, rfl⟩)) a4

/-- Outputs that no later module of a configuration overwrites are kept by the coupler. -/
theorem kept_infos {oc : Bool} {cfg : CouplerConfig} {c : Coupler}
    (hr : ReachableFrom oc cfg c) {j : Nat} (h : OutputsKept cfg j) : BytesKept (infos c) j := by
  rintro k ⟨m, off⟩ ⟨m', off'⟩ p hjk hj hk ⟨o, ho, h1, h2⟩ ⟨o', ho', h1', h2'⟩
  have hj' : ModuleAt c j m off := by
    unfold infos at hj
    exact List.getElem?_zip_eq_some.1 hj
  have hk' : ModuleAt c k m' off' := by
    unfold infos at hk
    exact List.getElem?_zip_eq_some.1 hk
  obtain ⟨t, par, a, i, hc, hm, rfl⟩ := reachable_at hr hj'
  obtain ⟨t', par', a', i', hc', hm', rfl⟩ := reachable_at hr hk'
  obtain ⟨hn, rfl⟩ := wordToOffset_some.1 ho
  obtain ⟨hn', rfl⟩ := wordToOffset_some.1 ho'
  simp only at h2 h2'
  rw [(create_bytes hm).2] at h2
  rw [(create_bytes hm').2] at h2'
  exact h k t par o i t' par' o' i' p hjk hc hc' hn hn' h1 h2 ⟨h1', h2'⟩

theorem analog_written {p : AnalogUIRange × DataFormat} {pending : Option ChannelValue}
    {w w' : Word} (h : valueToU16 (pending.getD (channelValue p w)) p.1 p.2 = .ok w') :
    AnalogWritten p pending w w' := by
  cases pending with
  | none =>
    have h4 := recode_of_idle h
    subst h4
    obtain ⟨r, f⟩ := p
    simp only [AnalogWritten, AnalogKept]
    split
    · rename_i hd
      subst hd
      rfl
    · rename_i hd
      exact ⟨by rintro rfl; exact recode_S5 hd w, fun h27 => recode_27 hd f w h27,
        recode_step hd f w⟩
  | some v =>
    cases v with
    | decimal32 x =>
      cases (Res.ok.inj h)
      exact encodedAs p x
    | disabled =>
      cases (Res.ok.inj h)
      rfl
    | _ => cases h

theorem counter_written {v : ChannelValue} {a : Word × Word × Word} (h : counterWords v = some a) :
    (v = .disabled ∧ a = (0#16, 0#16, 0#16)) ∨
    ∃ x, v = .fcntOut x ∧ a.1.toNat * 65536 + a.2.1.toNat = x.duration / 1000 ∧
      a.2.2 = controlOf x.command := by
  cases v with
  | disabled => cases h; exact .inl ⟨rfl, rfl⟩
  | fcntOut x =>
    right
    simp only [counterWords] at h
    split at h
    · rename_i hd
      cases h
      refine ⟨x, rfl, ?_, ?_⟩
      · rw [← wide_toNat, wide_micro _ (by omega)]
      · rcases x with ⟨d, _ | _ | _⟩ <;> rfl
    · cases h
  | _ => cases h

theorem controlOf_eq (ctl : Word) (us : Nat) {w : Word × Word × Word}
    (pending : Option ChannelValue)
    (h : counterWords (pending.getD (.fcntOut ⟨us * 1000, commandIn ctl⟩)) = some w) :
    CounterWritten pending us (w.1.toNat * 65536 + w.2.1.toNat) ctl w.2.2 := by
  cases pending with
  | none =>
    rcases counter_written h with ⟨h1, -⟩ | ⟨x, h1, h2, h3⟩
    · cases h1
    · cases h1
      exact ⟨by rw [h2]; exact Nat.mul_div_cancel us (by decide), h3⟩
  | some v =>
    rcases counter_written h with ⟨h1, rfl⟩ | ⟨x, h1, h2, h3⟩
    · cases h1
      exact ⟨rfl, rfl⟩
    · cases h1
      exact ⟨h2, h3⟩

/-- C72: what a successful cycle returns for every channel of every module with process output data
that is not serial: the pending value, and what the given output image says if there is none. -/
theorem C72_image (oc : Bool) (cfg : CouplerConfig) (c : Coupler) (hr : ReachableFrom oc cfg c)
    (j : Nat) (hdis : OutputsKept cfg j)
    (pi po img : List Word) (c' : Coupler) (h : c.next oc pi po = (c', .ok img))
    (t : ModuleType) (par : List Word) (o i : Word) (hcfg : ConfiguredAt cfg j t par o i)
    (ht : t ≠ .UR20_1COM_232_485_422) (hno : o ≠ noOffset)
    (hal : o.toNat % 16 = 0 ∨ outputBytes t par = 1) (ch : Nat) (hch : ch < outputChannels t) :
    OutputWritten t par po img (outBit o) ch (c.write ⟨j, ch⟩) := by
  have hinv := inv_of_reachable hr
  have hdis' := kept_infos hr hdis
  obtain ⟨m, hm, hc⟩ := configured_at hr hcfg
  have hs : ¬ IsSerial m := by rw [isSerial_type hc]; exact ht
  have ho : wordToOffset o = some o := wordToOffset_some.2 ⟨hno, rfl⟩
  have hb := (create_bytes hc).2
  have bits : (t = .UR20_4DO_P ∨ t = .UR20_4DO_P_2A ∨ t = .UR20_8DO_P ∨
      t = .UR20_16DO_P ∨ t = .UR20_4RO_CO_255) →
      ∃ b b', bitAt po (outBit o + ch) = some b ∧ bitAt img (outBit o + ch) = some b' ∧
        match c.write ⟨j, ch⟩ with
        | some (.bit x) => b' = x
        | some .disabled => b' = false
        | some _ => False
        | none => b' = b := by
    intro htt
    have hd := do_channels htt hc
    have hn : outputChannels t ≤ 8 ∨ o.toNat % 16 = 0 := by
      rcases htt with rfl | rfl | rfl | rfl | rfl
      · exact .inl (by decide)
      · exact .inl (by decide)
      · exact .inl (by decide)
      · exact .inr (hal.resolve_right (by simp [outputBytes]))
      · exact .inl (by decide)
    obtain ⟨vs, e0, -, e1⟩ := (C71_outputs oc cfg c hr pi po img c' h j t par o i hcfg ht).2 hno hal
    obtain ⟨v, e2, e3⟩ := e1 ch hch
    have e3' : ∃ b, bitAt po (outBit o + ch) = some b ∧ v = .bit b := by
      rcases htt with rfl | rfl | rfl | rfl | rfl <;> exact e3
    obtain ⟨b, e4, rfl⟩ := e3'
    obtain ⟨inV, outV, st1, r, vals, -, a2, ⟨lt, a3, -⟩, -, a5, -, -, a8, a9⟩ := next_module h hm
    rw [moduleStep_plain (hinv.none hm.1 hs)] at a3
    cases a3
    rw [e0] at a5
    cases a5
    simp only [(applyWrites_eq _ _ _ _).1] at a8
    obtain ⟨vs', b1, b2, b3⟩ := C44_encode (infos c) vals img a9 j hdis' m _ hd _ o
      (infos_getElem? hm) ho hn
    rw [a8] at b1
    cases b1
    refine ⟨b, _, e4, b3 ch hch, ?_⟩
    rw [List.getElem?_mapIdx, e2]
    simp only [Option.map_some, Nat.zero_add, Option.some.injEq]
    cases hw : c.write ⟨j, ch⟩ with
    | none => cases b <;> simp
    | some v =>
      have hacc : v = .disabled ∨ ∃ b, v = .bit b := by
        have := pending_accepted hr h hcfg hno hw
        rcases htt with rfl | rfl | rfl | rfl | rfl <;> exact this
      rcases hacc with rfl | ⟨x, rfl⟩
      · simp
      · cases x <;> simp
  cases t
  case UR20_4DO_P => exact bits (by simp)
  case UR20_4DO_P_2A => exact bits (by simp)
  case UR20_8DO_P => exact bits (by simp)
  case UR20_16DO_P => exact bits (by simp)
  case UR20_4RO_CO_255 => exact bits (by simp)
  case UR20_4AO_UI_16 =>
    obtain ⟨ps, h1, h2, h3⟩ := ao_params hc
    obtain ⟨f, r, hp, hf, hrr⟩ := h3 ch hch
    obtain ⟨w, w', e1, e2, e3⟩ := analog_cycle hr hdis' h hm h1 ho
      (hal.resolve_right (by simp [outputBytes])) hp
    exact ⟨w, w', f, r, e1, e2, hf, hrr, analog_written e3⟩
  case UR20_4AO_UI_16_DIAG =>
    obtain ⟨ps, h1, h2, h3⟩ := aoDiag_params hc
    obtain ⟨f, r, hp, hf, hrr⟩ := h3 ch hch
    obtain ⟨w, w', e1, e2, e3⟩ := analog_cycle hr hdis' h hm h1 ho
      (hal.resolve_right (by simp [outputBytes])) hp
    exact ⟨w, w', f, r, e1, e2, hf, hrr, analog_written e3⟩
  case UR20_2FCNT_100 =>
    obtain ⟨fm, rfl, h2⟩ := fcnt_params hc
    obtain ⟨raw, vs, d, r1, r2, r3, r4⟩ := module_cycle hinv hdis' h hm hs ho
      (hal.resolve_right (by simp [outputBytes])) 6 (by omega) hb
    obtain ⟨h0, l0, h1, l1, c0, c1, rfl⟩ := length_six r1
    rw [counter_decode] at r2
    cases r2
    simp only [List.mapIdx_cons, List.mapIdx_nil, Nat.zero_add] at r3
    rw [fcnt_encode fm h2] at r3
    split at r3
    swap
    · cases r3
    rename_i a b ea eb
    cases r3
    obtain ⟨q0, q1⟩ := preset_of_raw fun k hk => (r4 k hk).1
    obtain ⟨q0', q1'⟩ := preset_of_raw fun k hk => (r4 k hk).2
    change ch < 2 at hch
    obtain rfl | rfl : ch = 0 ∨ ch = 1 := by omega
    · exact ⟨_, _, c0, a.2.2, q0, q0', controlOf_eq c0 _ _ ea⟩
    · exact ⟨_, _, c1, b.2.2, q1, q1', controlOf_eq c1 _ _ eb⟩
  case UR20_1COM_232_485_422 => exact absurd rfl ht
  all_goals exact absurd hch (by simp [outputChannels])

theorem paramIs_unique {α : Type} [Coded α] (hinj : ∀ a b : α, code a = code b → a = b)
    {par : List Word} {k : Nat} {x y : α} (hx : ParamIs par k x) (hy : ParamIs par k y) : x = y := by
  obtain ⟨w, h1, h2⟩ := hx
  obtain ⟨w', h1', h2'⟩ := hy
  rw [h1] at h1'
  cases h1'
  exact hinj x y (h2.symm.trans h2')

theorem paramIs_range {par : List Word} {k : Nat} {x y : AnalogUIRange} (hx : ParamIs par k x)
    (hy : ParamIs par k y) : x = y := paramIs_unique C11_codes_injective.2.2.1 hx hy

theorem paramIs_format {par : List Word} {k : Nat} {x y : DataFormat} (hx : ParamIs par k x)
    (hy : ParamIs par k y) : x = y := paramIs_unique C11_codes_injective.2.1 hx hy

theorem commandIn_controlOf (x : Option Command) : commandIn (controlOf x) = x := by
  rcases x with _ | _ | _ <;> decide

/-- An encoded and decoded number is close to the number. -/
theorem recoded_close {r : AnalogUIRange} {f : DataFormat} {s : ℚ × ℚ} (hs : uiScale r = some s)
    {x : ℚ} (hx : Single x) (hr : |exactRaw s f x| ≤ 32767) {w : Word} {v : ChannelValue}
    (he : EncodedAs (r, f) (.fin x) w.toInt) (hv : AnalogReading (r, f) w v) :
    ∃ q, v = .decimal32 (.fin q) ∧ |q - x| ≤ 9 / 8 * ((s.2 - s.1) / fullScale f) := by
  simp only [EncodedAs, hs] at he
  simp only [AnalogReading, hs] at hv
  obtain ⟨q, rfl, -, -, -, hq⟩ := hv
  obtain ⟨-, -, he⟩ := he.2.2.2 x rfl hx
  obtain ⟨h1, -⟩ := he (by linarith [(abs_le.1 hr).1]) (by linarith [(abs_le.1 hr).2])
  refine ⟨q, rfl, ?_⟩
  have hw : |(w.toInt : ℚ)| ≤ 32768 := by
    have h1 := BitVec.le_toInt w
    have h2 := BitVec.toInt_lt (x := w)
    rw [abs_le]
    constructor
    · have : (-32768 : ℤ) ≤ w.toInt := by simpa using h1
      exact_mod_cast this
    · have : w.toInt ≤ (32768 : ℤ) := by
        have : w.toInt < 32768 := by simpa using h2
        omega
      exact_mod_cast this
  have hsc : 0 < s.2 - s.1 ∧ 0 ≤ s.1 ∧ s.1 ≤ s.2 - s.1 := by
    cases r <;> simp only [uiScale] at hs <;> cases hs <;> norm_num
  have hf : 0 < fullScale f ∧ fullScale f ≤ 27648 := by cases f <;> norm_num [fullScale]
  obtain ⟨hs1, hs2, hs3⟩ := hsc
  set d := s.2 - s.1 with hd
  set st := d / fullScale f with hst
  have hst0 : 0 < st := div_pos hs1 hf.1
  have hds : d ≤ 27648 * st := by
    rw [hst, ← mul_div_assoc, le_div_iff₀ hf.1]
    nlinarith
  have e1 : physical s f w.toInt - s.1 = w.toInt * st := by
    simp only [physical, hst]; ring
  have e2 : x - s.1 = exactRaw s f x * st := by
    simp only [exactRaw, ← hd, hst]
    have := hf.1.ne'
    have := hs1.ne'
    field_simp
  have b1 : |physical s f w.toInt - x| ≤ 17 / 16 * st := by
    have : physical s f w.toInt - x = ((w.toInt : ℚ) - exactRaw s f x) * st := by linarith
    rw [this, abs_mul, abs_of_pos hst0]
    exact mul_le_mul_of_nonneg_right (by linarith) hst0.le
  have b2 : |physical s f w.toInt - s.1| ≤ 32768 * st := by
    rw [e1, abs_mul, abs_of_pos hst0]
    exact mul_le_mul_of_nonneg_right hw hst0.le
  have b3 : |q - physical s f w.toInt| ≤ (32768 * st + 27648 * st) / 2 ^ 23 :=
    hq.trans (div_le_div_of_nonneg_right (by linarith) (by norm_num))
  calc |q - x| = |(q - physical s f w.toInt) + (physical s f w.toInt - x)| := by congr 1; ring
    _ ≤ |q - physical s f w.toInt| + |physical s f w.toInt - x| := abs_add_le _ _
    _ ≤ (32768 * st + 27648 * st) / 2 ^ 23 + 17 / 16 * st := add_le_add b3 b1
    _ ≤ 9 / 8 * st := by
      have : (32768 * st + 27648 * st) / 2 ^ 23 = st * (60416 / 8388608) := by norm_num; ring
      rw [this]
      nlinarith

/-- C73: if the image a cycle returns is the output image of a later cycle, `outputs` then shows what
was pending in the first cycle: the bit, the command and the preset in whole microseconds, and a
number up to 9/8 of the value of a raw unit. -/
theorem C73_read_back (oc : Bool) (cfg : CouplerConfig) (c d : Coupler)
    (hr : ReachableFrom oc cfg c) (hr' : ReachableFrom oc cfg d) (j : Nat) (hdis : OutputsKept cfg j)
    (pi po img pi' img' : List Word) (c' d' : Coupler) (h : c.next oc pi po = (c', .ok img))
    (h' : d.next oc pi' img = (d', .ok img'))
    (t : ModuleType) (par : List Word) (o i : Word) (hcfg : ConfiguredAt cfg j t par o i)
    (ht : t ≠ .UR20_1COM_232_485_422) (hno : o ≠ noOffset)
    (hal : o.toNat % 16 = 0 ∨ outputBytes t par = 1) (ch : Nat) (hch : ch < outputChannels t) :
    ∃ vs v, d'.outputs[j]? = some vs ∧ vs[ch]? = some v ∧
      (∀ b, c.write ⟨j, ch⟩ = some (.bit b) → v = .bit b) ∧
      (∀ x, c.write ⟨j, ch⟩ = some (.fcntOut x) →
        v = .fcntOut ⟨x.duration / 1000 * 1000, x.command⟩) ∧
      (∀ x r f s, c.write ⟨j, ch⟩ = some (.decimal32 (.fin x)) → Single x →
        OutputFormat t par ch r f → uiScale r = some s → |exactRaw s f x| ≤ 32767 →
        ∃ q, v = .decimal32 (.fin q) ∧ |q - x| ≤ 9 / 8 * ((s.2 - s.1) / fullScale f)) := by
  have hwr := C72_image oc cfg c hr j hdis pi po img c' h t par o i hcfg ht hno hal ch hch
  obtain ⟨vs, e1, -, e2⟩ := (C71_outputs oc cfg d hr' pi' img img' d' h' j t par o i hcfg ht).2
    hno hal
  obtain ⟨v, e3, e4⟩ := e2 ch hch
  refine ⟨vs, v, e1, e3, ?_⟩
  have bits : ∀ {pending : Option ChannelValue}, c.write ⟨j, ch⟩ = pending →
      (∃ b b', bitAt po (outBit o + ch) = some b ∧ bitAt img (outBit o + ch) = some b' ∧
      match pending with
      | some (.bit x) => b' = x
      | some .disabled => b' = false
      | some _ => False
      | none => b' = b) → (∃ b, bitAt img (outBit o + ch) = some b ∧ v = .bit b) →
      (∀ r f, ¬ OutputFormat t par ch r f) →
      (∀ b, pending = some (.bit b) → v = .bit b) ∧
      (∀ x, pending = some (.fcntOut x) →
        v = .fcntOut ⟨x.duration / 1000 * 1000, x.command⟩) ∧
      (∀ x r f s, pending = some (.decimal32 (.fin x)) → Single x →
        OutputFormat t par ch r f → uiScale r = some s → |exactRaw s f x| ≤ 32767 →
        ∃ q, v = .decimal32 (.fin q) ∧ |q - x| ≤ 9 / 8 * ((s.2 - s.1) / fullScale f)) := by
    rintro pending - ⟨b, b', -, g1, g2⟩ ⟨b2, g3, rfl⟩ hfmt
    rw [g1] at g3
    cases g3
    refine ⟨?_, ?_, fun x r f s _ _ hf => absurd hf (hfmt r f)⟩
    · rintro b rfl
      cases g2
      rfl
    · rintro x rfl
      exact g2.elim
  have analog : ∀ {pending : Option ChannelValue} (r : AnalogUIRange) (f : DataFormat) (w w' : Word),
      AnalogWritten (r, f) pending w w' → AnalogReading (r, f) w' v →
      (∀ r' f', OutputFormat t par ch r' f' → r' = r ∧ f' = f) →
      (∀ b, pending = some (.bit b) → v = .bit b) ∧
      (∀ x, pending = some (.fcntOut x) →
        v = .fcntOut ⟨x.duration / 1000 * 1000, x.command⟩) ∧
      (∀ x r f s, pending = some (.decimal32 (.fin x)) → Single x →
        OutputFormat t par ch r f → uiScale r = some s → |exactRaw s f x| ≤ 32767 →
        ∃ q, v = .decimal32 (.fin q) ∧ |q - x| ≤ 9 / 8 * ((s.2 - s.1) / fullScale f)) := by
    intro pending r f w w' g1 g2 g3
    refine ⟨?_, ?_, ?_⟩
    · rintro b rfl
      exact g1.elim
    · rintro x rfl
      exact g1.elim
    · rintro x r' f' s rfl hx hf hs hb
      obtain ⟨rfl, rfl⟩ := g3 r' f' hf
      exact recoded_close hs hx hb g1 g2
  cases t
  case UR20_4DO_P => exact bits rfl hwr e4 (fun _ _ hf => hf)
  case UR20_4DO_P_2A => exact bits rfl hwr e4 (fun _ _ hf => hf)
  case UR20_8DO_P => exact bits rfl hwr e4 (fun _ _ hf => hf)
  case UR20_16DO_P => exact bits rfl hwr e4 (fun _ _ hf => hf)
  case UR20_4RO_CO_255 => exact bits rfl hwr e4 (fun _ _ hf => hf)
  case UR20_4AO_UI_16 =>
    obtain ⟨w, w', f, r, -, g2, g3, g4, g5⟩ := hwr
    obtain ⟨w2, f2, r2, k1, k2, k3, k4⟩ := e4
    rw [g2] at k1
    cases k1
    cases paramIs_format g3 k2
    cases paramIs_range g4 k3
    exact analog r f w w' g5 k4 fun r' f' hf =>
      ⟨paramIs_range hf.2 g4, paramIs_format hf.1 g3⟩
  case UR20_4AO_UI_16_DIAG =>
    obtain ⟨w, w', f, r, -, g2, g3, g4, g5⟩ := hwr
    obtain ⟨w2, f2, r2, k1, k2, k3, k4⟩ := e4
    rw [g2] at k1
    cases k1
    cases paramIs_format g3 k2
    cases paramIs_range g4 k3
    exact analog r f w w' g5 k4 fun r' f' hf =>
      ⟨paramIs_range hf.2 g4, paramIs_format hf.1 g3⟩
  case UR20_2FCNT_100 =>
    obtain ⟨us, us', ctl, ctl', -, ⟨hi, lo, k1, k2, k3, k4⟩, g⟩ := hwr
    obtain ⟨us2, ctl2, ⟨hi2, lo2, k1', k2', k3', k4'⟩, rfl⟩ := e4
    rw [k1] at k1'
    rw [k2] at k2'
    rw [k4] at k4'
    cases k1'
    cases k2'
    cases k4'
    rw [← k3] at k3'
    subst k3'
    refine ⟨?_, ?_, fun x r f s _ _ hf => hf.elim⟩
    · intro b hb
      rw [hb] at g
      exact g.elim
    · intro x hx
      rw [hx] at g
      obtain ⟨rfl, rfl⟩ := g
      rw [commandIn_controlOf]
  case UR20_1COM_232_485_422 => exact absurd rfl ht
  all_goals exact absurd hch (by simp [outputChannels])

/-! ### A coupler with digital, analog, counter and temperature channels -/

def exMixCfg : CouplerConfig :=
  { modules := [.UR20_16DO_P, .UR20_4AO_UI_16, .UR20_2FCNT_100, .UR20_4AI_RTD_DIAG]
    offsets := [0x8000#16, 0xFFFF#16, 0x8010#16, 0xFFFF#16, 0x8050#16, 0#16, 0xFFFF#16, 0x00A0#16]
    params := [[], exAoParams, [0#16, 0#16], List.replicate 29 0] }

def exMixModules : List Module :=
  match mapRes (fun p : ModuleType × List Word => Module.create p.1 p.2)
    (exMixCfg.modules.zip exMixCfg.params) with
  | .ok ms => ms
  | _ => []

theorem exMixCfg_new : Coupler.new exMixCfg = .ok (initial exMixCfg exMixModules) := by
  have h : mapRes (fun p : ModuleType × List Word => Module.create p.1 p.2)
      (exMixCfg.modules.zip exMixCfg.params) = .ok exMixModules := by decide +kernel
  rw [new_eq, h]; rfl

theorem exMix_at {j : Nat} {t : ModuleType} {par : List Word} {o i : Word}
    (h : ConfiguredAt exMixCfg j t par o i) :
    (j = 0 ∧ t = .UR20_16DO_P ∧ o = 0x8000#16) ∨ (j = 1 ∧ t = .UR20_4AO_UI_16 ∧ o = 0x8010#16) ∨
    (j = 2 ∧ t = .UR20_2FCNT_100 ∧ o = 0x8050#16) ∨ (j = 3 ∧ o = noOffset) := by
  obtain ⟨h1, h2, h3, h4⟩ := h
  have hj : j < 4 := (List.getElem?_eq_some_iff.1 h1).1
  match j, hj with
  | 0, _ => cases h1; cases h3; decide
  | 1, _ => cases h1; cases h3; decide
  | 2, _ => cases h1; cases h3; decide
  | 3, _ => cases h3; exact .inr (.inr (.inr ⟨rfl, rfl⟩))

theorem exMix_disjoint : DisjointOutputs exMixCfg := by
  refine disjointOutputs_of ?_
  have key : ∀ {j t par o i p}, ConfiguredAt exMixCfg j t par o i → o ≠ noOffset →
      outByte o ≤ p → p < outByte o + outputBytes t par →
      (j = 0 ∧ p < 2) ∨ (j = 1 ∧ 2 ≤ p ∧ p < 10) ∨ (j = 2 ∧ 10 ≤ p) := by
    intro j t par o i p h hno h1 h2
    rcases exMix_at h with ⟨rfl, rfl, rfl⟩ | ⟨rfl, rfl, rfl⟩ | ⟨rfl, rfl, rfl⟩ | ⟨rfl, rfl⟩
    · rw [show outByte 0x8000#16 = 0 by decide] at h1 h2
      exact .inl ⟨rfl, h2⟩
    · rw [show outByte 0x8010#16 = 2 by decide] at h1 h2
      exact .inr (.inl ⟨rfl, h1, h2⟩)
    · rw [show outByte 0x8050#16 = 10 by decide] at h1 h2
      exact .inr (.inr ⟨rfl, h1⟩)
    · exact absurd rfl hno
  intro j k t par o i t' par' o' i' p h h' hn hn' h1 h2 h3 h4
  have := key h hn h1 h2
  have := key h' hn' h3 h4
  omega

/-- The coupler with a pending bit, a pending current of 10 mA and a pending counter preset of
1500.5 microseconds. -/
def exMix : Coupler := runC true (initial exMixCfg exMixModules)
  [.setOutput ⟨0, 9⟩ (.bit true), .setOutput ⟨1, 0⟩ (.decimal32 (.fin 10)),
   .setOutput ⟨2, 1⟩ (.fcntOut ⟨1500500, some .start⟩)]

theorem exMix_reachable : ReachableFrom true exMixCfg exMix := ⟨_, _, exMixCfg_new, rfl⟩

/-- Input image: counter channel 0 has measured 2 * 125 ns and counted 65541 pulses, temperature
channel 1 is at 23.5 degrees. -/
def exMixPi : List Word :=
  [0#16, 2#16, 1#16, 5#16, 0#16, 0#16, 0#16, 0#16, 0x100#16, 0#16, 0#16, 235#16, 0#16, 0#16]

def exMixPo : List Word :=
  [1#16, 27#16, 54#16, 7#16, 0#16, 0#16, 77#16, 0#16, 0#16, 0x200#16, 0#16]

/-- The image that results. -/
def exMixImg : List Word :=
  [0x201#16, 0x3600#16, 54#16, 7#16, 0#16, 0#16, 77#16, 0#16, 1500#16, 0x200#16, 0x100#16]

theorem exMix_next : ∃ c', exMix.next true exMixPi exMixPo = (c', .ok exMixImg) := by
  have h : (exMix.next true exMixPi exMixPo).2 = .ok exMixImg := by decide +kernel
  exact ⟨_, by rw [← h]⟩

/-- The next cycle gets that image. -/
theorem exMix_again : ∃ d', (exMix.next true exMixPi exMixPo).1.next true exMixPi exMixImg =
    (d', .ok exMixImg) := by
  have h : ((exMix.next true exMixPi exMixPo).1.next true exMixPi exMixImg).2 = .ok exMixImg := by
    decide +kernel
  exact ⟨_, by rw [← h]⟩

/-- C70: the inputs of the counter and of the temperature module. -/
example : ∃ c' vs us, exMix.next true exMixPi exMixPo = (c', .ok exMixImg) ∧
    c'.inputs[2]? = some vs ∧ vs[0]? = some (.fcntIn ⟨some 250, 65541, true⟩) ∧
    c'.inputs[3]? = some us ∧ ∃ v, us[1]? = some v ∧
      InputShown .UR20_4AI_RTD_DIAG (List.replicate 29 0) exMixPi 0xA0 1 v := by
  obtain ⟨c', h⟩ := exMix_next
  obtain ⟨vs, h1, -, h2⟩ := (C70_inputs true exMixCfg exMix exMix_reachable _ _ _ _ h 2
    .UR20_2FCNT_100 [0#16, 0#16] 0x8050#16 0#16 ⟨rfl, rfl, rfl, rfl⟩ (by simp)).2 (by decide)
    (by decide)
  obtain ⟨us, h3, -, h4⟩ := (C70_inputs true exMixCfg exMix exMix_reachable _ _ _ _ h 3
    .UR20_4AI_RTD_DIAG (List.replicate 29 0) 0xFFFF#16 0xA0#16 ⟨rfl, rfl, rfl, rfl⟩ (by simp)).2
    (by decide) (by decide)
  obtain ⟨v, h5, dh, dl, nh, nl, s, k1, k2, k3, k4, k5, x, rfl, k6, k7, k8⟩ := h2 0 (by decide)
  cases k1
  cases k2
  cases k3
  cases k4
  cases k5
  refine ⟨c', vs, us, h, h1, ?_, h3, h4 1 (by decide)⟩
  rw [h5]
  have k6' : x.count = 65541 := BitVec.eq_of_toNat_eq k6
  obtain ⟨a, b, e⟩ := x
  have k7' : e = true := k7
  have k8' : a = some 250 := k8.trans (by decide)
  have k6'' : b = 65541 := k6'
  rw [k6'', k7', k8']

/-- C73: the outputs after the second cycle. -/
example : ∃ d', (exMix.next true exMixPi exMixPo).1.next true exMixPi exMixImg =
    (d', .ok exMixImg) ∧ (∃ vs, d'.outputs[0]? = some vs ∧ vs[9]? = some (.bit true)) ∧
    (∃ vs, d'.outputs[2]? = some vs ∧ vs[1]? = some (.fcntOut ⟨1500000, some .start⟩)) ∧
    ∃ vs q, d'.outputs[1]? = some vs ∧ vs[0]? = some (.decimal32 (.fin q)) ∧
      |q - 10| ≤ 9 / 8 * (20 / 27648) := by
  obtain ⟨c', h⟩ := exMix_next
  obtain ⟨d', h'⟩ := exMix_again
  have hr' : ReachableFrom true exMixCfg (exMix.next true exMixPi exMixPo).1 :=
    ⟨_, [.setOutput ⟨0, 9⟩ (.bit true), .setOutput ⟨1, 0⟩ (.decimal32 (.fin 10)),
      .setOutput ⟨2, 1⟩ (.fcntOut ⟨1500500, some .start⟩), .next exMixPi exMixPo], exMixCfg_new, rfl⟩
  refine ⟨d', h', ?_, ?_, ?_⟩
  · obtain ⟨vs, v, h1, h2, h3, -⟩ := C73_read_back true exMixCfg exMix _ exMix_reachable hr'
      0 (exMix_disjoint 0) _ _ _ _ _ _ _ h h' .UR20_16DO_P [] 0x8000#16 0xFFFF#16 ⟨rfl, rfl, rfl, rfl⟩
      (by simp) (by decide) (by decide) 9 (by decide)
    exact ⟨vs, h1, by rw [h2, h3 true rfl]⟩
  · obtain ⟨vs, v, h1, h2, -, h3, -⟩ := C73_read_back true exMixCfg exMix _ exMix_reachable hr'
      2 (exMix_disjoint 2) _ _ _ _ _ _ _ h h' .UR20_2FCNT_100 [0#16, 0#16] 0x8050#16 0#16
      ⟨rfl, rfl, rfl, rfl⟩ (by simp) (by decide) (by decide) 1 (by decide)
    exact ⟨vs, h1, h2.trans (congrArg some (h3 ⟨1500500, some .start⟩ rfl))⟩
  · obtain ⟨vs, v, h1, h2, -, -, h3⟩ := C73_read_back true exMixCfg exMix _ exMix_reachable hr'
      1 (exMix_disjoint 1) _ _ _ _ _ _ _ h h' .UR20_4AO_UI_16 exAoParams 0x8010#16 0xFFFF#16
      ⟨rfl, rfl, rfl, rfl⟩ (by simp) (by decide) (by decide) 0 (by decide)
    obtain ⟨q, rfl, hq⟩ := h3 10 .mA0To20 .S7 (0, 20) rfl
      ⟨10, 0, by norm_num, by norm_num, by norm_num, by norm_num⟩ ⟨⟨_, rfl, rfl⟩, ⟨_, rfl, rfl⟩⟩ rfl
      (by norm_num [exactRaw, fullScale])
    refine ⟨vs, q, h1, h2, ?_⟩
    simpa [fullScale] using hq

end Ur20
