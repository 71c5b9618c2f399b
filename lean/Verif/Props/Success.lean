import Verif.Lemmas.Encode
import Verif.Lemmas.Anywhere
import Verif.Props.SerialCoupler

/-! # Cycles that succeed: C68, C69 -/

namespace Ur20

open Spec Com Coupler

theorem registersBefore_succ (l : List (Module × ModuleOffset)) (j : Nat) :
    registersBefore l (j + 1) = registersBefore l j + (l[j]?.map registersAdded).getD 0 := by
  unfold registersBefore
  rw [List.take_add_one, List.map_append, List.sum_append]
  cases l[j]? <;> simp

/-- The registers before a module, from the configuration. -/
theorem registersUpTo_eq {oc : Bool} {cfg : CouplerConfig} {c : Coupler}
    (hr : ReachableFrom oc cfg c) (j : Nat) :
    registersBefore (infos c) j = registersUpTo cfg j := by
  induction j with
  | zero => simp [registersBefore, registersUpTo]
  | succ j ih =>
    rw [registersBefore_succ, ih, registersUpTo]
    congr 1
    by_cases hj : j < cfg.modules.length
    · have hi := inv_of_reachable hr
      obtain ⟨m, hm, -⟩ := (reachable_module hr).2 j _ (List.getElem?_eq_getElem hj)
      obtain ⟨off, hat⟩ := hi.moduleAt hm
      obtain ⟨t, par, o, i, ⟨h1, h2, h3, h4⟩, hc, rfl⟩ := reachable_at hr hat
      rw [infos_getElem? hat, h1, h2, h3]
      simp only [Option.map_some, Option.getD_some, registersAdded, wordToOffset, noOffset]
      rw [(create_bytes hc).2]
      by_cases ho : o = 65535#16
      · simp [ho]
      · simp [ho]
    · have h1 : (infos c)[j]? = none := by
        rw [List.getElem?_eq_none_iff]
        have := (reachable_module hr).1
        unfold infos
        rw [List.length_zip]
        omega
      rw [h1, List.getElem?_eq_none (by omega)]
      rfl

/-- The values of a module that are encoded at the end of a cycle. -/
theorem module_encode_at {oc : Bool} {cfg : CouplerConfig} {c : Coupler}
    (hr : ReachableFrom oc cfg c) {pi po : List Word} {j : Nat} {t : ModuleType} {par : List Word}
    {o i : Word} (hno : o ≠ noOffset)
    (hbase : outputBase ≤ o.toNat) (hcov : 0 < outputBytes t par)
    (hpend : ∀ ch v, c.write ⟨j, ch⟩ = some v → Accepts t v)
    (hpre : ∀ ch us, t = .UR20_2FCNT_100 → ch < 2 → c.write ⟨j, ch⟩ = none →
      presetAt po (outByte o + 4 * ch) = some us → us ≤ 0x7FFFFF) {m : Module}
    (hm : ModuleAt c j m ⟨wordToOffset i, wordToOffset o⟩) (hc : Module.create t par = .ok m)
    {inV outV : List ChannelValue}
    (hin : moduleInput oc pi m ⟨wordToOffset i, wordToOffset o⟩ = .ok inV)
    (hout : moduleOutput oc po m ⟨wordToOffset i, wordToOffset o⟩ = .ok outV)
    {lt : Nat} {st : LoopState} {r : ModuleResult}
    (hstep : moduleStep j ⟨c.write, c.processors, lt⟩ inV outV = .ok (st, r)) :
    ∃ d, m.processOutputValues r.nextV = .ok d := by
  have hi := inv_of_reachable hr
  have ho : wordToOffset o = some o := wordToOffset_some.2 ⟨hno, rfl⟩
  have hbytes := create_bytes hc
  by_cases hs : IsSerial m
  · have ht := (isSerial_type hc).1 hs
    obtain ⟨cm, rfl⟩ := hs
    obtain ⟨p, hp⟩ := hi.com j cm hm.1
    obtain ⟨cm', hcm', hq⟩ := hi.proc j p hp
    rw [hm.1] at hcm'
    cases hcm'
    rw [show wordToOffset o = some o from ho] at hout
    obtain ⟨f, rfl, hf1, hf2, hf3, -⟩ := serial_output_any hout
    have hcap : capacity cm.processDataLen = cm.processDataLen.userDataLen := by
      cases cm.processDataLen <;> rfl
    have hkey : ∀ g : RsOut, g.txCnt < 4 → g.rxCntAck < 4 →
        g.data.length ≤ cm.processDataLen.userDataLen →
        ∃ d, (Module.com cm).processOutputValues [.comRsOut g] = .ok d := by
      intro g g1 g2 g3
      obtain ⟨ws, h1, -⟩ := C22_registers cm g g1 g2 (by rw [hcap]; exact g3)
      exact ⟨ws, h1⟩
    by_cases hii : i = noOffset
    · have hin' : inV = [.none] := by
        rw [show wordToOffset i = none by rw [hii]; rfl] at hin
        cases hin
        rfl
      subst hin'
      rw [moduleStep_other (p := p) (by exact hp) rfl (by simp) (by simp)] at hstep
      cases hstep
      exact hkey f hf1 hf2 hf3
    · rw [show wordToOffset i = some i from wordToOffset_some.2 ⟨hii, rfl⟩] at hin
      obtain ⟨g, rfl, hg'⟩ := serial_input_any hin
      rw [moduleStep_serial (p := p) (by exact hp)] at hstep
      cases hstep
      have hq' : QueueOk cm.processDataLen (feed p (c.write ⟨j, 0⟩)) := by
        unfold feed
        split
        · exact hq.write _
        · exact hq
      obtain ⟨n1, n2, n3⟩ := next_encodable hq' (i := g) (o := f) hg' hf1 hf3
      exact hkey _ n1 n2 n3
  · rw [moduleStep_plain (hi.none hm.1 hs)] at hstep
    cases hstep
    simp only [(applyWrites_eq _ _ _ _).1, Nat.zero_add]
    rw [show wordToOffset o = some o from ho] at hout
    unfold moduleOutput at hout
    simp only [Res.bind_eq, Res.bind_eq_ok] at hout
    obtain ⟨raw, h1, hdec⟩ := hout
    have hadr : addrPackedProcessOutputData.toNat * 16 = outputBase := by decide
    refine plain_encode_total hc hs (by omega) (prepareRaw_ok h1).1 hdec
      (w := fun k => c.write ⟨j, k⟩)
      hpend (fun ht k hi' lo hk hw e1 e2 => ?_)
    have h12 : m.outputByteCount = 12 := by rw [hbytes.2, ht]; rfl
    rw [h12] at h1
    refine hpre k _ ht hk hw ?_
    have := presetAt_raw h1 (by rw [hadr]; exact hbase) hk e1 e2
    rwa [hadr] at this

theorem module_encode_total {oc : Bool} {cfg : CouplerConfig} {c : Coupler}
    (hr : ReachableFrom oc cfg c) {pi po : List Word} (hcom : CompleteImages cfg pi po)
    (henc : Encodable cfg c.write po) {j : Nat} {m : Module} {off : ModuleOffset}
    (hm : ModuleAt c j m off) {o : Word} (ho : off.output = some o)
    {inV outV : List ChannelValue} (hin : moduleInput oc pi m off = .ok inV)
    (hout : moduleOutput oc po m off = .ok outV) {lt : Nat} {st : LoopState} {r : ModuleResult}
    (hstep : moduleStep j ⟨c.write, c.processors, lt⟩ inV outV = .ok (st, r)) :
    ∃ d, m.processOutputValues r.nextV = .ok d := by
  obtain ⟨t, par, o', i, hcfg, hc, rfl⟩ := reachable_at hr hm
  simp only at ho
  obtain ⟨hno, rfl⟩ := wordToOffset_some.1 ho
  obtain ⟨hplace, hcov, -⟩ := hcom.output j t par o i hcfg hno
  exact module_encode_at hr hno hplace.1 hcov.1
    (fun ch v hk => henc.pending j t par o i ch v hcfg hno hk)
    (fun ch us ht hk hw e => henc.preset j t par o i ch us hcfg hno ht hk hw e)
    hm hc hin hout hstep

/-- C68: a cycle succeeds whenever the images have the registers of all modules, the output offsets of
the configuration follow each other, and the pending values and counter presets can be encoded. The
image it returns has the registers of all output modules. -/
theorem C68_success (oc : Bool) (cfg : CouplerConfig) (c : Coupler) (hr : ReachableFrom oc cfg c)
    (pi po : List Word) (hcom : CompleteImages cfg pi po) (henc : Encodable cfg c.write po) :
    ∃ c' img, c.next oc pi po = (c', .ok img) ∧
      img.length = registersUpTo cfg cfg.modules.length := by
  have hi := inv_of_reachable hr
  have hat : ∀ (j : Nat) e, (infos c)[j]? = some e → ModuleAt c j e.1 e.2 := by
    intro j e he
    unfold infos at he
    rw [List.getElem?_zip_eq_some] at he
    exact he
  obtain ⟨ins, h1⟩ : ∃ ins, processInputData oc (infos c) pi = .ok ins := by
    refine mapRes_total fun e he => ?_
    obtain ⟨j, hj⟩ := List.mem_iff_getElem?.1 he
    have hm := hat j e hj
    obtain ⟨t, par, o, i, hcfg, hc, hoff⟩ := reachable_at hr hm
    simp only [hoff]
    by_cases hii : i = noOffset
    · rw [show wordToOffset i = none by rw [hii]; rfl]
      exact ⟨_, rfl⟩
    · rw [show wordToOffset i = some i from wordToOffset_some.2 ⟨hii, rfl⟩]
      obtain ⟨h1, h2⟩ := hcom.input j t par o i hcfg hii
      exact moduleInput_total oc hc i _ h1 h2
  obtain ⟨outs, h2⟩ : ∃ outs, processOutputData oc (infos c) po = .ok outs := by
    refine mapRes_total fun e he => ?_
    obtain ⟨j, hj⟩ := List.mem_iff_getElem?.1 he
    have hm := hat j e hj
    obtain ⟨t, par, o, i, hcfg, hc, hoff⟩ := reachable_at hr hm
    simp only [hoff]
    by_cases hoo : o = noOffset
    · rw [show wordToOffset o = none by rw [hoo]; rfl]
      exact ⟨_, rfl⟩
    · rw [show wordToOffset o = some o from wordToOffset_some.2 ⟨hoo, rfl⟩]
      obtain ⟨h1, h2, h3⟩ := hcom.output j t par o i hcfg hoo
      exact moduleOutput_total oc hc o _ h1.1 h2 h3
  obtain ⟨st, rs, h3⟩ := hi.cycle_ok h1 h2
  obtain ⟨hlen, -, -, -, hmod⟩ := cycleLoop_spec h3
  have l1 := mapRes_length h1
  have l2 := mapRes_length h2
  rw [List.length_zip] at hlen
  have hC := C41_misplaced (infos c) (rs.map (·.nextV)) (by rw [List.length_map]; omega) (by
    intro j m off vs hj hv ho
    have hm := hat j _ hj
    obtain ⟨o, ho⟩ := Option.ne_none_iff_exists'.1 ho
    obtain ⟨inV, hi1, hi2⟩ := mapRes_getElem? h1 hj
    obtain ⟨outV, ho1, ho2⟩ := mapRes_getElem? h2 hj
    refine ⟨moduleOutput_has_output ho ho2, ?_⟩
    obtain ⟨st1, r, e1, e2, -⟩ := hmod j inV outV (by
      rw [List.getElem?_zip_eq_some]; exact ⟨hi1, ho1⟩)
    rw [List.getElem?_map, e1] at hv
    cases hv
    rw [Nat.zero_add] at e2
    exact module_encode_total hr hcom henc hm ho hi2 ho2 e2)
  obtain ⟨img, himg⟩ := hC.1 (by
    intro j m off o hj ho
    obtain ⟨t, par, o', i, hcfg, hc, hoff⟩ := reachable_at hr (hat j _ hj)
    change off = _ at hoff
    rw [hoff] at ho
    obtain ⟨hno, rfl⟩ := wordToOffset_some.1 ho
    rw [registersUpTo_eq hr]
    exact (hcom.output j t par o i hcfg hno).1)
  have hfin := Coupler.next_done h1 h2 h3 (c' := (c.next oc pi po).1) (r := (c.next oc pi po).2) rfl
  refine ⟨(c.next oc pi po).1, img, Prod.ext rfl (by rw [hfin.2, himg]), ?_⟩
  rw [(C41_layout _ _ _ himg).2.1, registersUpTo_eq hr]
  congr 1
  unfold infos
  rw [List.length_zip, hi.len, Nat.min_self, (reachable_module hr).1]

/-- Registers cut out of an image are in the image. -/
theorem covers_of_prepareRaw {oc : Bool} {off addr : Word} {bytes : Nat} {data raw : List Word}
    (ha : addr.toNat * 16 ≤ off.toNat) (hn : bytes ≠ 0)
    (h : prepareRawDataToProcess oc off addr bytes data = .ok raw) :
    HasRegisters data (off.toNat - addr.toNat * 16) bytes := by
  obtain ⟨-, h2, h3⟩ := prepareRaw_ok h
  rw [rawStart_eq off addr ha] at h2
  have h16 : off.toNat % 16 = 0 ∨ off.toNat % 16 = 8 := h3.imp And.left And.left
  unfold rawWords at h2
  refine ⟨by omega, by omega, ?_⟩
  split at h2 <;> omega

theorem bytes_even {t : ModuleType} {par : List Word} :
    (inputBytes t par % 2 = 0 ∨ inputBytes t par = 1) ∧
    (outputBytes t par % 2 = 0 ∨ outputBytes t par = 1) := by
  have h : ∀ p : Prop, [Decidable p] → (if p then 8 else 16) % 2 = 0 := by
    intro p _; split_ifs <;> rfl
  cases t <;> first | exact ⟨.inl (h _), .inl (h _)⟩ | simp [inputBytes, outputBytes]

theorem frame_fits {data raw : List Word} {oc : Bool} {off addr : Word} {len : ProcessDataLength}
    (ha : addr.toNat * 16 ≤ off.toNat)
    (h : prepareRawDataToProcess oc off addr len.byteCount data = .ok raw)
    (hf : ∀ n, (u16ToU8 raw)[1]? = some n → n.toNat + 2 ≤ (u16ToU8 raw).length) :
    FrameFits data ((off.toNat - addr.toNat * 16) / 8) len.byteCount := by
  intro b hb
  have hl := (prepareRaw_ok h).1
  have he := byteCount_even len
  have h8 : 8 ≤ len.byteCount := by cases len <;> decide
  rw [← prepareRaw_bytes h ha 1 (by omega), byteAt_eq] at hb
  have := hf b hb
  rw [u16ToU8_length, hl] at this
  omega

/-- A value that is pending when a cycle succeeds is of a kind its channel accepts. -/
theorem pending_accepted {oc : Bool} {cfg : CouplerConfig} {c : Coupler}
    (hr : ReachableFrom oc cfg c) {pi po img : List Word} {c' : Coupler}
    (h : c.next oc pi po = (c', .ok img)) {j : Nat} {t : ModuleType} {par : List Word} {o i : Word}
    (hcfg : ConfiguredAt cfg j t par o i) (hno : o ≠ noOffset) {ch : Nat} {v : ChannelValue}
    (hw : c.write ⟨j, ch⟩ = some v) : Accepts t v := by
  have hi := inv_of_reachable hr
  obtain ⟨m, hm, hc⟩ := configured_at hr hcfg
  have ho : wordToOffset o = some o := wordToOffset_some.2 ⟨hno, rfl⟩
  rw [ho] at hm
  by_cases hs : IsSerial m
  · rw [(isSerial_type hc).1 hs]; trivial
  · obtain ⟨inV, outV, st1, r, vals, a1, a2, ⟨lt, a3, -⟩, -, -, -, -, a8, a9⟩ := next_module h hm
    have hne := moduleOutput_has_output rfl a2
    simp only [moduleOutput, Res.bind_eq, Res.bind_eq_ok] at a2
    obtain ⟨raw, g1, g2⟩ := a2
    rw [moduleStep_plain (hi.none hm.1 hs)] at a3
    cases a3
    simp only [(applyWrites_eq _ _ _ _).1, Nat.zero_add] at a8
    obtain ⟨vs, d, e1, e2, -⟩ := (C41_layout _ _ _ a9).2.2 j m _ o (infos_getElem? hm) rfl
    rw [a8] at e1
    cases e1
    refine (plain_encode_conv hc hs hne (prepareRaw_ok g1).1 g2
      (w := fun k => c.write ⟨j, k⟩) e2).1 ch v ?_ hw
    have hv := hi.valid ⟨j, ch⟩ (by rw [hw]; simp)
    unfold isValidAddr at hv
    rw [hm.1] at hv
    simpa using hv

/-- C69: a cycle succeeds only if the images have the registers of all modules, the output offsets
follow each other, and the pending values and counter presets can be encoded. -/
theorem C69_needed (oc : Bool) (cfg : CouplerConfig) (c : Coupler) (hr : ReachableFrom oc cfg c)
    (pi po img : List Word) (c' : Coupler)
    (h : c.next oc pi po = (c', .ok img)) :
    CompleteImages cfg pi po ∧ Encodable cfg c.write po := by
  have hi := inv_of_reachable hr
  have ha : addrPackedProcessInputData.toNat * 16 = 0 := by decide
  have hadr : addrPackedProcessOutputData.toNat * 16 = outputBase := by decide
  have hplace : ∀ j t par o i, ConfiguredAt cfg j t par o i → o ≠ noOffset →
      InPlace o (registersUpTo cfg j) := by
    intro j t par o i hcfg hno
    obtain ⟨m, hm, hc⟩ := configured_at hr hcfg
    obtain ⟨ins, outs, st, rs, -, -, -, -, himg⟩ := next_ok h
    obtain ⟨vs, d, -, -, -, hin, -⟩ := (C41_layout _ _ _ himg).2.2 j m _ o (infos_getElem? hm)
      (wordToOffset_some.2 ⟨hno, rfl⟩)
    rwa [registersUpTo_eq hr] at hin
  have hcov : ∀ j t par o i, ConfiguredAt cfg j t par o i → o ≠ noOffset →
      ∃ m raw outV, ModuleAt c j m ⟨wordToOffset i, some o⟩ ∧ Module.create t par = .ok m ∧
        prepareRawDataToProcess oc o addrPackedProcessOutputData m.outputByteCount po = .ok raw ∧
        m.processOutputData raw = .ok outV ∧
        moduleOutput oc po m ⟨wordToOffset i, some o⟩ = .ok outV ∧ m.outputByteCount ≠ 0 := by
    intro j t par o i hcfg hno
    obtain ⟨m, hm, hc⟩ := configured_at hr hcfg
    have ho : wordToOffset o = some o := wordToOffset_some.2 ⟨hno, rfl⟩
    rw [ho] at hm
    obtain ⟨inV, outV, st1, r, vals, a1, a2, -⟩ := next_module h hm
    have hb := moduleOutput_has_output rfl a2
    have a2' := a2
    simp only [moduleOutput, Res.bind_eq, Res.bind_eq_ok] at a2'
    obtain ⟨raw, g1, g2⟩ := a2'
    exact ⟨m, raw, outV, hm, hc, g1, g2, a2, hb⟩
  refine ⟨⟨?_, ?_⟩, ⟨?_, ?_⟩⟩
  · intro j t par o i hcfg hni
    obtain ⟨m, hm, hc⟩ := configured_at hr hcfg
    have hii : wordToOffset i = some i := wordToOffset_some.2 ⟨hni, rfl⟩
    rw [hii] at hm
    obtain ⟨inV, outV, st1, r, vals, a1, -⟩ := next_module h hm
    simp only [moduleInput, Res.bind_eq, Res.bind_eq_ok] at a1
    obtain ⟨raw, g1, g2⟩ := a1
    have hb := (create_bytes hc).1
    have hne : m.inputByteCount ≠ 0 := by
      intro h0
      have hl := (prepareRaw_ok g1).1
      have hp := rawWords_pos m.inputByteCount
      have hraw : raw ≠ [] := by rintro rfl; simp at hl; omega
      rw [Module.processInputData_none m h0 raw hraw] at g2
      cases g2
    rw [← hb]
    refine ⟨?_, fun ht => ?_⟩
    · have := covers_of_prepareRaw (by rw [ha]; omega) hne g1
      rwa [ha, Nat.sub_zero] at this
    · obtain ⟨cm, rfl⟩ := (isSerial_type hc).2 ht
      have := frame_fits (len := cm.processDataLen) (by rw [ha]; omega) g1 (by
        intro n hn
        simp only [Module.processInputData, Com.Mod.processInputData, Res.bind_eq, Res.bind_eq_ok]
          at g2
        obtain ⟨v, hv, -⟩ := g2
        apply Nat.le_of_not_lt
        intro hlt
        rw [((C21_input _).1).2 (.inr ⟨n, hn, by omega⟩)] at hv
        cases hv)
      rwa [ha, Nat.sub_zero] at this
  · intro j t par o i hcfg hno
    obtain ⟨m, raw, outV, hm, hc, g1, g2, a2, hne⟩ := hcov j t par o i hcfg hno
    have hin := hplace j t par o i hcfg hno
    have hb := (create_bytes hc).2
    rw [← hb]
    refine ⟨hin, ?_, fun ht => ?_⟩
    · have := covers_of_prepareRaw (by rw [hadr]; exact hin.1) hne g1
      rwa [hadr] at this
    · obtain ⟨cm, rfl⟩ := (isSerial_type hc).2 ht
      have := frame_fits (len := cm.processDataLen) (by rw [hadr]; exact hin.1) g1 (by
        intro n hn
        simp only [Module.processOutputData, Com.Mod.processOutputData, Res.bind_eq,
          Res.bind_eq_ok] at g2
        obtain ⟨v, hv, -⟩ := g2
        apply Nat.le_of_not_lt
        intro hlt
        rw [((C21_output _).1).2 (.inr ⟨n, hn, by omega⟩)] at hv
        cases hv)
      rwa [hadr] at this
  · exact fun j t par o i ch v hcfg hno hw => pending_accepted hr h hcfg hno hw
  · intro j t par o i ch us hcfg hno ht hch hw e
    obtain ⟨m, raw, outV, hm, hc, g1, g2, a2, hne⟩ := hcov j t par o i hcfg hno
    have hs : ¬ IsSerial m := by
      rw [isSerial_type hc, ht]; simp
    have hin := hplace j t par o i hcfg hno
    obtain ⟨inV, outV', st1, r, vals, a1, a2', ⟨lt, a3, -⟩, -, -, -, -, a8, a9⟩ := next_module h hm
    rw [a2] at a2'
    cases a2'
    rw [moduleStep_plain (hi.none hm.1 hs)] at a3
    cases a3
    simp only [(applyWrites_eq _ _ _ _).1, Nat.zero_add] at a8
    obtain ⟨vs, d, f1, f2, -⟩ := (C41_layout _ _ _ a9).2.2 j m _ o (infos_getElem? hm) rfl
    rw [a8] at f1
    cases f1
    have h12 : m.outputByteCount = 12 := by rw [(create_bytes hc).2, ht]; rfl
    have hl := (prepareRaw_ok g1).1
    rw [h12, show rawWords 12 = 6 by decide] at hl
    have g1' := g1
    rw [h12] at g1'
    have e1 : raw[2 * ch]? = some (raw[2 * ch]'(by omega)) := List.getElem?_eq_getElem _
    have e2 : raw[2 * ch + 1]? = some (raw[2 * ch + 1]'(by omega)) := List.getElem?_eq_getElem _
    have hpr := presetAt_raw g1' (by rw [hadr]; exact hin.1) hch e1 e2
    rw [hadr] at hpr
    change presetAt po (outByte o + 4 * ch) = _ at hpr
    rw [hpr] at e
    cases e
    exact (plain_encode_conv hc hs hne (prepareRaw_ok g1).1 g2 (w := fun k => c.write ⟨j, k⟩) f2).2
      ht ch _ _ hch hw e1 e2

/-- C68, C69 together: exactly then does a cycle succeed. -/
theorem C69_success_iff (oc : Bool) (cfg : CouplerConfig) (c : Coupler)
    (hr : ReachableFrom oc cfg c) (pi po : List Word) :
    (∃ img, (c.next oc pi po).2 = .ok img) ↔
      CompleteImages cfg pi po ∧ Encodable cfg c.write po := by
  constructor
  · rintro ⟨img, h⟩
    exact C69_needed oc cfg c hr pi po img _ (Prod.ext rfl h)
  · rintro ⟨h1, h2⟩
    obtain ⟨c', img, h, -⟩ := C68_success oc cfg c hr pi po h1 h2
    exact ⟨img, by rw [h]⟩

/-- The modules of the example configuration. -/
theorem exCfg_at {j : Nat} {t : ModuleType} {par : List Word} {o i : Word}
    (h : ConfiguredAt exCfg j t par o i) :
    (j = 0 ∧ t = .UR20_4DO_P ∧ o = 0x8000#16 ∧ i = noOffset ∧ par = List.replicate 4 0) ∨
    (j = 1 ∧ t = .UR20_8DO_P ∧ o = 0x8008#16 ∧ i = noOffset ∧ par = List.replicate 8 0) ∨
    (j = 2 ∧ t = .UR20_4DI_P ∧ o = noOffset ∧ i = 0#16 ∧ par = List.replicate 4 0) ∨
    (j = 3 ∧ t = .UR20_1COM_232_485_422 ∧ o = 0x8010#16 ∧ i = 0x10#16 ∧
      par = List.replicate 10 0) := by
  obtain ⟨h1, h2, h3, h4⟩ := h
  have hj : j < 4 := (List.getElem?_eq_some_iff.1 h1).1
  match j, hj with
  | 0, _ => cases h1; cases h2; cases h3; cases h4; decide
  | 1, _ => cases h1; cases h2; cases h3; cases h4; decide
  | 2, _ => cases h1; cases h2; cases h3; cases h4; decide
  | 3, _ => cases h1; cases h2; cases h3; cases h4; decide

theorem ex_complete : CompleteImages exCfg exPi exPo := by
  constructor
  · intro j t par o i h hn
    rcases exCfg_at h with ⟨rfl, rfl, rfl, rfl, rfl⟩ | ⟨rfl, rfl, rfl, rfl, rfl⟩ |
      ⟨rfl, rfl, rfl, rfl, rfl⟩ | ⟨rfl, rfl, rfl, rfl, rfl⟩
    · exact absurd rfl hn
    · exact absurd rfl hn
    · refine ⟨by unfold HasRegisters; decide, fun h => by cases h⟩
    · refine ⟨by unfold HasRegisters; decide, fun _ b hb => ?_⟩
      rw [show byteAt exPi _ = some 0#8 by decide] at hb
      cases hb; decide
  · intro j t par o i h hn
    rcases exCfg_at h with ⟨rfl, rfl, rfl, rfl, rfl⟩ | ⟨rfl, rfl, rfl, rfl, rfl⟩ |
      ⟨rfl, rfl, rfl, rfl, rfl⟩ | ⟨rfl, rfl, rfl, rfl, rfl⟩
    · refine ⟨by unfold InPlace; decide, by unfold HasRegisters; decide, fun h => by cases h⟩
    · refine ⟨by unfold InPlace; decide, by unfold HasRegisters; decide, fun h => by cases h⟩
    · exact absurd rfl hn
    · refine ⟨by unfold InPlace; decide, by unfold HasRegisters; decide, fun _ b hb => ?_⟩
      rw [show byteAt exPo _ = some 0#8 by decide] at hb
      cases hb; decide

/-- With a pending bit for a digital output the example coupler completes its cycle, with a
pending byte string it does not. -/
example : Encodable exCfg
    (runC true (initial exCfg exModules) [.setOutput ⟨0, 2⟩ (.bit true)]).write exPo := by
  have hw0 : ∀ a, (runC true (initial exCfg exModules) [.setOutput ⟨0, 2⟩ (.bit true)]).write a =
      if a = ⟨0, 2⟩ then some (.bit true) else none := fun _ => rfl
  constructor
  · intro j t par o i ch v h hn hw
    rcases exCfg_at h with ⟨rfl, rfl, rfl, rfl, rfl⟩ | ⟨rfl, rfl, rfl, rfl, rfl⟩ |
      ⟨rfl, rfl, rfl, rfl, rfl⟩ | ⟨rfl, rfl, rfl, rfl, rfl⟩
    · rw [hw0] at hw
      split at hw
      · cases hw; exact .inr ⟨_, rfl⟩
      · cases hw
    · rw [hw0] at hw
      simp at hw
    · trivial
    · trivial
  · intro j t par o i ch us h hn ht
    rcases exCfg_at h with ⟨rfl, rfl, rfl, rfl, rfl⟩ | ⟨rfl, rfl, rfl, rfl, rfl⟩ |
      ⟨rfl, rfl, rfl, rfl, rfl⟩ | ⟨rfl, rfl, rfl, rfl, rfl⟩ <;> cases ht

example : ∃ img, ((runC true (initial exCfg exModules) [.setOutput ⟨0, 2⟩ (.bit true)]).next true
    exPi exPo).2 = .ok img := ⟨_, rfl⟩
example : ((runC true (initial exCfg exModules) [.setOutput ⟨0, 2⟩ (.bytes [])]).next true
    exPi exPo).2 = .err .channelValue := rfl

/-- A coupler with modules of two and four bytes in the high byte of a register. -/
def exShift : CouplerConfig :=
  { modules := [.UR20_4DO_P, .UR20_16DO_P, .UR20_4DI_P, .UR20_PF_O_1DI_SIL]
    offsets := [0x8000#16, 0xFFFF#16, 0x8008#16, 0xFFFF#16, 0xFFFF#16, 0x0000#16, 0xFFFF#16,
      0x0008#16]
    params := [List.replicate 4 0, [], List.replicate 4 0, []] }

theorem exShift_at {j : Nat} {t : ModuleType} {par : List Word} {o i : Word}
    (h : ConfiguredAt exShift j t par o i) :
    (j = 0 ∧ t = .UR20_4DO_P ∧ o = 0x8000#16 ∧ i = noOffset ∧ par = List.replicate 4 0) ∨
    (j = 1 ∧ t = .UR20_16DO_P ∧ o = 0x8008#16 ∧ i = noOffset ∧ par = []) ∨
    (j = 2 ∧ t = .UR20_4DI_P ∧ o = noOffset ∧ i = 0#16 ∧ par = List.replicate 4 0) ∨
    (j = 3 ∧ t = .UR20_PF_O_1DI_SIL ∧ o = noOffset ∧ i = 8#16 ∧ par = []) := by
  obtain ⟨h1, h2, h3, h4⟩ := h
  have hj : j < 4 := (List.getElem?_eq_some_iff.1 h1).1
  match j, hj with
  | 0, _ => cases h1; cases h2; cases h3; cases h4; decide
  | 1, _ => cases h1; cases h2; cases h3; cases h4; decide
  | 2, _ => cases h1; cases h2; cases h3; cases h4; decide
  | 3, _ => cases h1; cases h2; cases h3; cases h4; decide

/-- C68 covers it: one register of outputs and two of inputs will do. -/
theorem exShift_complete (x a b : Word) : CompleteImages exShift [a, b] [x] := by
  constructor
  · intro j t par o i h hn
    rcases exShift_at h with ⟨rfl, rfl, rfl, rfl, rfl⟩ | ⟨rfl, rfl, rfl, rfl, rfl⟩ |
      ⟨rfl, rfl, rfl, rfl, rfl⟩ | ⟨rfl, rfl, rfl, rfl, rfl⟩
    · exact absurd rfl hn
    · exact absurd rfl hn
    · exact ⟨by simp [HasRegisters, inputBytes], fun h => by cases h⟩
    · exact ⟨by simp [HasRegisters, inputBytes], fun h => by cases h⟩
  · intro j t par o i h hn
    rcases exShift_at h with ⟨rfl, rfl, rfl, rfl, rfl⟩ | ⟨rfl, rfl, rfl, rfl, rfl⟩ |
      ⟨rfl, rfl, rfl, rfl, rfl⟩ | ⟨rfl, rfl, rfl, rfl, rfl⟩
    · exact ⟨by unfold InPlace; decide, by simp [HasRegisters, outputBytes, outBit, outputBase],
        fun h => by cases h⟩
    · exact ⟨by unfold InPlace; decide, by simp [HasRegisters, outputBytes, outBit, outputBase],
        fun h => by cases h⟩
    · exact absurd rfl hn
    · exact absurd rfl hn

example (x : Word) : Encodable exShift (fun _ => none) [x] := by
  constructor
  · intro j t par o i ch v h hno hw
    cases hw
  · intro j t par o i ch us h hno ht
    rcases exShift_at h with ⟨rfl, rfl, rfl, rfl, rfl⟩ | ⟨rfl, rfl, rfl, rfl, rfl⟩ |
      ⟨rfl, rfl, rfl, rfl, rfl⟩ | ⟨rfl, rfl, rfl, rfl, rfl⟩ <;> cases ht

/-- The cycle succeeds, one register fewer makes it fail. -/
example : ∃ c, Coupler.new exShift = .ok c ∧ (∃ img, (c.next true [7, 8] [9]).2 = .ok img) ∧
    (c.next true [7] [9]).2 = .err .bufferLength := ⟨_, rfl, ⟨_, rfl⟩, rfl⟩

end Ur20
