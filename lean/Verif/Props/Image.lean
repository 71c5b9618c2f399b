import Verif.Lemmas.Raw
import Verif.Props.Digital

/-! # Process images: C41, C42, C44, C45 -/

namespace Ur20

open Spec

/-- The modules of the examples: two 4-channel outputs sharing a register, a 16-channel output and
a digital input. -/
def exInfos : List (Module × ModuleOffset) :=
  [(.dout ⟨.UR20_4DO_P, []⟩, ⟨none, some 0x8000#16⟩),
   (.dout ⟨.UR20_8DO_P, []⟩, ⟨none, some 0x8008#16⟩),
   (.di ⟨.UR20_4DI_P, []⟩, ⟨some 0x0008#16, none⟩),
   (.do16, ⟨none, some 0x8010#16⟩)]

/-- Values for `exInfos`. -/
def exVals (b : Bool) : List (List ChannelValue) :=
  [[.bit true, .bit false, .bit b, .bit true], List.replicate 8 (.bit true), List.replicate 4 .none,
   .bit true :: List.replicate 15 (.bit false)]

theorem wordsOf_take (infos : List (Module × ModuleOffset)) (vals : List (List ChannelValue))
    (hl : infos.length = vals.length) (i : Nat) :
    wordsOf ((infos.zip vals).take i) = registersBefore infos i := by
  unfold wordsOf registersBefore
  rw [show (fun e : (Module × ModuleOffset) × List ChannelValue => registersAdded e.1)
    = registersAdded ∘ Prod.fst from rfl, ← List.map_map, List.map_take, List.map_fst_zip (by omega)]

/-- C41: the layout of a successfully encoded image. One list of values per module is needed, the
image has the registers of all modules, and every module with an output offset is encoded at the
offset, which is where the modules before it end. A module in the high byte of a register
contributes its first byte only. -/
theorem C41_layout (infos : List (Module × ModuleOffset)) (vals : List (List ChannelValue))
    (img : List Word) (h : processOutputValues infos vals = .ok img) :
    vals.length = infos.length ∧ img.length = registersBefore infos infos.length ∧
    ∀ i m off o, infos[i]? = some (m, off) → off.output = some o →
      ∃ vs d, vals[i]? = some vs ∧ m.processOutputValues vs = .ok d ∧
        d.length = (m.outputByteCount + 1) / 2 ∧ InPlace o (registersBefore infos i) ∧
        (o.toNat % 16 = 8 → 0 < m.outputByteCount) ∧
        ∀ k, k < (if o.toNat % 16 = 8 then 1 else 2 * d.length) →
          NotOverlaid infos i (outByte o + k) → byteAt img (outByte o + k) = byteAt d k := by
  unfold processOutputValues at h
  split at h
  · cases h
  · rename_i hl
    simp only [ne_eq, Decidable.not_not] at hl
    refine ⟨hl.symm, ?_, ?_⟩
    · rw [outputLoop_length h, List.length_nil, Nat.zero_add, ← wordsOf_take _ _ hl,
        List.take_of_length_le (by simp [hl])]
    · intro i m off o hi ho
      have hi' : i < infos.length := (List.getElem?_eq_some_iff.1 hi).1
      have hz : (infos.zip vals)[i]? = some ((m, off), vals[i]) := by
        rw [List.getElem?_zip_eq_some]
        exact ⟨hi, List.getElem?_eq_getElem (by omega)⟩
      have hlt : i < (infos.zip vals).length := (List.getElem?_eq_some_iff.1 hz).1
      have hsplit : infos.zip vals = (infos.zip vals).take i ++
          ((m, off), vals[i]) :: (infos.zip vals).drop (i + 1) := by
        rw [← (List.getElem?_eq_some_iff.1 hz).2, ← List.drop_eq_getElem_cons hlt,
          List.take_append_drop]
      rw [hsplit] at h
      obtain ⟨d, hd, hin, hne, hb⟩ := outputLoop_module h o ho
      have hdl := Module.processOutputValues_length _ _ _ hd
      refine ⟨vals[i], d, List.getElem?_eq_getElem (by omega), hd,
        hdl, ?_, fun h8 => ?_, fun k hk hno => hb k hk ?_⟩
      · rwa [wordsOf_take _ _ hl] at hin
      · have := List.length_pos_of_ne_nil (hne h8)
        simp only at hdl
        omega
      · intro e' he' o' ho'
        obtain ⟨j, hj⟩ := List.mem_iff_getElem?.1 he'
        rw [List.getElem?_drop] at hj
        obtain ⟨⟨m', off'⟩, vs'⟩ := e'
        rw [List.getElem?_zip_eq_some] at hj
        exact hno (i + 1 + j) m' off' o' (by omega) hj.1 ho'

/-- Two modules share the first register; the image has two registers. -/
example : processOutputValues exInfos (exVals false) = .ok [0xFF09#16, 0x0001#16] := by decide
example : registersBefore exInfos 4 = 2 := by decide
example : NotOverlaid exInfos 0 0 := by
  intro j m off o hj hm ho
  match j with
  | 1 => cases hm; cases ho; decide
  | 2 => cases hm; cases ho
  | 3 => cases hm; cases ho; decide
  | j + 4 => simp [exInfos] at hm

/-- C41: the image has no gaps: every byte of it lies in the registers that some module at a
register boundary adds. -/
theorem C41_no_gaps (infos : List (Module × ModuleOffset)) (vals : List (List ChannelValue))
    (img : List Word) (h : processOutputValues infos vals = .ok img) (p : Nat)
    (hp : p < 2 * img.length) :
    ∃ (i : Nat) (m : Module) (off : ModuleOffset) (o : Word),
      infos[i]? = some (m, off) ∧ off.output = some o ∧ o.toNat % 16 = 0 ∧
      outByte o ≤ p ∧ p < outByte o + 2 * ((m.outputByteCount + 1) / 2) := by
  obtain ⟨-, hlen, hmod⟩ := C41_layout infos vals img h
  rw [hlen] at hp
  have hs : ∀ i e, infos[i]? = some e →
      registersBefore infos (i + 1) = registersBefore infos i + registersAdded e := by
    intro i e he
    unfold registersBefore
    rw [List.take_add_one, he]
    simp
  have key : ∀ n, n ≤ infos.length → p < 2 * registersBefore infos n →
      ∃ i e, infos[i]? = some e ∧ 2 * registersBefore infos i ≤ p ∧
        p < 2 * registersBefore infos i + 2 * registersAdded e := by
    intro n
    induction n with
    | zero => intro _ h0; simp [registersBefore] at h0
    | succ n ih =>
      intro hn hpn
      by_cases hlt : p < 2 * registersBefore infos n
      · exact ih (by omega) hlt
      · refine ⟨n, infos[n], List.getElem?_eq_getElem (by omega), by omega, ?_⟩
        rw [hs n _ (List.getElem?_eq_getElem (by omega))] at hpn
        omega
  obtain ⟨i, ⟨m, off⟩, hi, h1, h2⟩ := key _ (Nat.le_refl _) hp
  unfold registersAdded at h2
  cases ho : off.output with
  | none => simp only [ho] at h2; omega
  | some o =>
    simp only [ho] at h2
    split at h2
    · rename_i h0
      obtain ⟨-, -, -, -, -, hin, -, -⟩ := hmod i m off o hi ho
      obtain ⟨-, ⟨-, h3⟩ | ⟨h3, -⟩⟩ := (inPlace_iff _ _).1 hin
      · exact ⟨i, m, off, o, hi, ho, h0, by omega, by omega⟩
      · omega
    · omega

/-- C41: if every module with an output offset has process output data and gets encodable values,
then encoding succeeds when every such module is where the previous ones end, and otherwise fails
with `ModuleOffset`. -/
theorem C41_misplaced (infos : List (Module × ModuleOffset)) (vals : List (List ChannelValue))
    (hl : vals.length = infos.length)
    (henc : ∀ (i : Nat) m off vs, infos[i]? = some (m, off) → vals[i]? = some vs →
      off.output ≠ none → m.outputByteCount ≠ 0 ∧ ∃ d, m.processOutputValues vs = .ok d) :
    ((∀ (i : Nat) m off o, infos[i]? = some (m, off) → off.output = some o →
        InPlace o (registersBefore infos i)) →
      ∃ img, processOutputValues infos vals = .ok img) ∧
    ((¬ ∀ (i : Nat) m off o, infos[i]? = some (m, off) → off.output = some o →
        InPlace o (registersBefore infos i)) →
      processOutputValues infos vals = .err .moduleOffset) := by
  have hz : ∀ (i : Nat) e, (infos.zip vals)[i]? = some e ↔
      infos[i]? = some e.1 ∧ vals[i]? = some e.2 := by
    intro i e; rw [List.getElem?_zip_eq_some]
  have ho := outputLoop_outcome [] (infos.zip vals) (by
    intro e he o ho
    obtain ⟨i, hi⟩ := List.mem_iff_getElem?.1 he
    rw [hz] at hi
    exact henc i e.1.1 e.1.2 e.2 hi.1 hi.2 (by rw [ho]; simp))
  simp only [List.length_nil, Nat.zero_add, wordsOf_take _ _ hl.symm] at ho
  unfold processOutputValues
  rw [if_neg (by omega)]
  rcases ho with ⟨h1, h2⟩ | ⟨h1, i, e, o, h2, h3, h4⟩
  · refine ⟨fun _ => h1, fun hn => absurd ?_ hn⟩
    intro i m off o hi ho
    have hi' : i < infos.length := (List.getElem?_eq_some_iff.1 hi).1
    exact h2 i ((m, off), vals[i]) o ((hz _ _).2 ⟨hi, List.getElem?_eq_getElem (by omega)⟩) ho
  · refine ⟨fun hall => absurd (hall i e.1.1 e.1.2 o ((hz _ _).1 h2).1 h3) h4, fun _ => h1⟩

/-- The 16-channel module moved one register up leaves a gap. -/
example : processOutputValues (exInfos.take 3 ++ [(.do16, ⟨none, some 0x8020#16⟩)]) (exVals false)
    = .err .moduleOffset := by decide

/-- C41: a wrong number of value lists is rejected with `ChannelValue`. -/
theorem C41_length (infos : List (Module × ModuleOffset)) (vals : List (List ChannelValue))
    (hl : vals.length ≠ infos.length) :
    processOutputValues infos vals = .err .channelValue := by
  unfold processOutputValues
  rw [if_pos (fun h => hl h.symm)]

example : processOutputValues exInfos [] = .err .channelValue := by decide

theorem written_outside {m : Module} {off : ModuleOffset} {o : Word} (ho : off.output = some o)
    {vs vs' : List ChannelValue} {d d' : List Word} (hd : m.processOutputValues vs = .ok d)
    (hd' : m.processOutputValues vs' = .ok d') (p : Nat)
    (hp : ¬ (outByte o ≤ p ∧ p < outByte o + m.outputByteCount)) (hne : d ≠ [])
    (hne' : d' ≠ []) : written ((m, off), vs) p = written ((m, off), vs') p := by
  have hl := Module.processOutputValues_length _ _ _ hd
  have hl' := Module.processOutputValues_length _ _ _ hd'
  have hpos : m.outputByteCount ≠ 0 := by
    intro h0
    rw [h0] at hl
    exact hne (List.length_eq_zero_iff.1 hl)
  simp only [written, ho, hd, hd', placed]
  split
  · split
    · rename_i h1
      by_cases hodd : m.outputByteCount % 2 = 1
      · obtain ⟨w, rfl, hw⟩ := Module.processOutputValues_high _ _ _ hd hodd
        obtain ⟨w', rfl, hw'⟩ := Module.processOutputValues_high _ _ _ hd' hodd
        simp only [List.length_singleton] at hl hl'
        have hz : ∀ w : Word, w.toNat < 256 → ∀ q, 1 ≤ q →
            byteAt [w] q = if q = 1 then some 0#8 else none := by
          intro w hw q hq
          rw [byteAt_eq]
          rcases q with _ | _ | q
          · omega
          · have : hiByte w = 0#8 := by
              apply BitVec.eq_of_toNat_eq
              rw [hiByte_toNat]
              simp
              omega
            simp [u16ToU8, this]
          · simp [u16ToU8]
        rw [hz w hw _ (by omega), hz w' hw' _ (by omega)]
      · rw [byteAt_none.2 (by omega), byteAt_none.2 (by omega)]
    · rfl
  · rw [if_neg (by omega), if_neg (by omega)]

/-- C42: if two lists of values agree except for module `j`, and both can be encoded, the images
have the same length and agree in every byte that does not belong to module `j`. -/
theorem C42_independent (infos : List (Module × ModuleOffset))
    (vals vals' : List (List ChannelValue)) (j : Nat)
    (hsame : ∀ i, i ≠ j → vals[i]? = vals'[i]?) (img img' : List Word)
    (h : processOutputValues infos vals = .ok img)
    (h' : processOutputValues infos vals' = .ok img') :
    img.length = img'.length ∧
    ∀ p, (∀ e, infos[j]? = some e → ¬ Owns e p) → byteAt img p = byteAt img' p := by
  obtain ⟨hl, hlen, hmod⟩ := C41_layout infos vals img h
  obtain ⟨hl', hlen', hmod'⟩ := C41_layout infos vals' img' h'
  refine ⟨by rw [hlen, hlen'], fun p hp => ?_⟩
  unfold processOutputValues at h h'
  rw [if_neg (by omega)] at h h'
  rw [outputLoop_bytes h, outputLoop_bytes h']
  have key : ∀ (l l' : List ((Module × ModuleOffset) × List ChannelValue)),
      l.length = l'.length →
      (∀ (i : Nat) e e', l[i]? = some e → l'[i]? = some e' → written e p = written e' p) →
      writtenBy l p = writtenBy l' p := by
    intro l
    induction l with
    | nil => intro l' hl _; cases l' with
      | nil => rfl
      | cons => simp at hl
    | cons e l ih =>
      intro l' hl hw
      cases l' with
      | nil => simp at hl
      | cons e' l' =>
        simp only [writtenBy]
        rw [ih l' (by simpa using hl) fun i a b ha hb => hw (i + 1) a b ha hb,
          hw 0 e e' rfl rfl]
  congr 1
  refine key _ _ (by simp [hl, hl']) ?_
  intro i e e' he he'
  obtain ⟨⟨m, off⟩, vs⟩ := e
  obtain ⟨⟨m', off'⟩, vs'⟩ := e'
  rw [List.getElem?_zip_eq_some] at he he'
  obtain ⟨he1, he2⟩ := he
  obtain ⟨he1', he2'⟩ := he'
  simp only at he1 he2 he1' he2'
  rw [he1] at he1'
  cases he1'
  by_cases hij : i = j
  · subst hij
    cases ho : off.output with
    | none => simp [written, ho]
    | some o =>
      obtain ⟨_, d, hv, hd, hdl, hin, -, -⟩ := hmod i m off o he1 ho
      rw [he2] at hv; cases hv
      obtain ⟨_, d', hv', hd', hdl', -, -, -⟩ := hmod' i m off o he1 ho
      rw [he2'] at hv'; cases hv'
      by_cases hc : m.outputByteCount = 0
      · have h1 : d = [] := List.length_eq_zero_iff.1 (by rw [hdl, hc])
        have h2 : d' = [] := List.length_eq_zero_iff.1 (by rw [hdl', hc])
        simp only [written, ho, hd, hd', h1, h2]
      · refine written_outside ho hd hd' p ?_ ?_ ?_
        · intro hr
          exact hp _ he1 ⟨o, ho, hr.1, hr.2⟩
        · intro h0
          rw [h0, List.length_nil] at hdl
          omega
        · intro h0
          rw [h0, List.length_nil] at hdl'
          omega
  · have := hsame i hij
    rw [he2, he2'] at this
    cases this
    rfl

/-- Changing a channel of the first module changes the low byte of the shared register only. -/
example : processOutputValues exInfos (exVals true) = .ok [0xFF0D#16, 0x0001#16] := by decide

/-- In a successfully encoded image the bytes of a module that no other module overlaps are its own. -/
theorem C41_own_bytes (infos : List (Module × ModuleOffset)) (vals : List (List ChannelValue))
    (img : List Word) (h : processOutputValues infos vals = .ok img) (i : Nat)
    (hdis : BytesKept infos i) (m : Module) (off : ModuleOffset) (o : Word) (hi : infos[i]? = some (m, off))
    (ho : off.output = some o) :
    ∃ vs d, vals[i]? = some vs ∧ m.processOutputValues vs = .ok d ∧
      outputBase ≤ o.toNat ∧ o.toNat % 8 = 0 ∧
      ∀ k, k < m.outputByteCount → (o.toNat % 16 = 8 → k = 0) →
        byteAt img (outByte o + k) = byteAt d k := by
  obtain ⟨-, -, hmod⟩ := C41_layout infos vals img h
  obtain ⟨vs, d, h1, h2, h3, h4, h5, h6⟩ := hmod i m off o hi ho
  obtain ⟨h7, h8⟩ := (inPlace_iff _ _).1 h4
  refine ⟨vs, d, h1, h2, h7, by omega, fun k hk h0 => h6 k ?_ ?_⟩
  · split
    · rename_i h8
      have := h0 h8
      omega
    · omega
  · intro j m' off' o' hj hm' ho' hb
    obtain ⟨-, -, -, -, -, -, hpos, -⟩ := hmod j m' off' o' hm' ho'
    exact hdis j _ _ (outByte o + k) hj hi hm' ⟨o, ho, by omega, by simp only; omega⟩
      ⟨o', ho', by omega, by have := hpos hb.1; simp only; omega⟩

theorem bitAt_byteAt (img : List Word) (p i : Nat) (hi : i < 8) :
    bitAt img (8 * p + i) = (byteAt img p).map (·.getLsbD i) := by
  unfold bitAt byteAt
  rw [show (8 * p + i) / 16 = p / 2 by omega, Option.map_map]
  congr 1
  funext w
  simp only [Function.comp_apply, BitVec.getLsbD_extractLsb', hi, decide_true, Bool.true_and]
  congr 1
  omega

/-- A bit of an image from a byte list that agrees with it. -/
theorem bitAt_word (img : List Word) (q : Nat) (w : Word) (n : Nat) (hn : n ≤ 16)
    (hb : ∀ k, 8 * k < n → byteAt img (q + k) = byteAt [w] k) (c : Nat) (hc : c < n) :
    bitAt img (8 * q + c) = some (w.getLsbD c) := by
  rw [show 8 * q + c = 8 * (q + c / 8) + c % 8 by omega, bitAt_byteAt _ _ _ (by omega),
    hb (c / 8) (by omega), ← bitAt_byteAt _ _ _ (by omega),
    show 8 * (c / 8) + c % 8 = c by omega]
  unfold bitAt
  rw [show c / 16 = 0 by omega, show c % 16 = c by omega]
  rfl

theorem rawWords_one : rawWords 1 = 1 ∧ rawWords 2 = 1 := by decide

theorem byteAt_some {img : List Word} {p : Nat} (h : p < 2 * img.length) :
    ∃ b, byteAt img p = some b := by
  cases hb : byteAt img p with
  | none => have := byteAt_none.1 hb; omega
  | some b => exact ⟨b, rfl⟩

theorem digitalOutputs_bytes {m : Module} {n : Nat} (h : digitalOutputs m = some n) :
    m.outputByteCount = if n ≤ 8 then 1 else 2 := by
  unfold digitalOutputs at h
  split at h <;> simp only [Option.some.injEq, reduceCtorEq] at h <;> subst h <;> rfl

theorem digitalInputs_bytes {m : Module} {n : Nat} (h : digitalInputs m = some n) :
    m.inputByteCount = 1 ∧ n ≤ 8 := by
  unfold digitalInputs at h
  split at h <;> simp only [Option.some.injEq, reduceCtorEq] at h <;> subst h <;>
    exact ⟨by simp [Module.inputByteCount, Di.Mod.inputByteCount, Di.Variant.moduleType,
      ModuleType.channelCount], by omega⟩

/-- The raw word of a module of one register. -/
theorem prepareRaw_one {oc : Bool} {off addr : Word} {bc : Nat} {data : List Word}
    (hbc : rawWords bc = 1) (ha : addr.toNat * 16 ≤ off.toNat) (h8 : off.toNat % 8 = 0)
    (hlen : (off.toNat - addr.toNat * 16) / 16 < data.length) :
    ∃ w, prepareRawDataToProcess oc off addr bc data = .ok [w] ∧
      ∀ k, k < 2 - off.toNat % 16 / 8 →
        byteAt data ((off.toNat - addr.toNat * 16) / 8 + k) = byteAt [w] k := by
  have hs := rawStart_eq off addr ha
  cases hp : prepareRawDataToProcess oc off addr bc data with
  | panic => exact absurd hp (prepareRaw_ne_panic _ _ _ _ _ fun _ => ha)
  | err e =>
    exfalso
    rw [prepareRaw_unfold, if_neg (by simp only [Bool.and_eq_true, decide_eq_true_eq]; omega),
      if_neg (by omega)] at hp
    split at hp
    · cases hp
    · rw [if_pos (by omega)] at hp
      obtain ⟨raw, hr, -⟩ := shiftData_spec ((data.drop (rawStart off addr)).take (rawWords bc)) (by
        intro he
        have := congrArg List.length he
        simp only [List.length_take, List.length_drop, List.length_nil] at this
        omega)
      rw [hr] at hp
      cases hp
  | ok raw =>
    obtain ⟨hl, -⟩ := prepareRaw_ok hp
    rw [hbc] at hl
    obtain ⟨w, rfl⟩ := List.length_eq_one_iff.1 hl
    refine ⟨w, rfl, fun k hk => ?_⟩
    rw [prepareRaw_bytes hp ha k (by rw [hbc]; omega)]

/-- C44: a digital input module at bit 0 or bit 8 of a register reads its channels from the low or
the high byte: channel `c` is bit `off + c` of the input image. -/
theorem C44_decode_input (oc : Bool) (data : List Word) (m : Module) (n : Nat)
    (hm : digitalInputs m = some n) (off : Word) (out : Option Word) (h8 : off.toNat % 8 = 0)
    (hlen : off.toNat / 16 < data.length) :
    ∃ vs, moduleInput oc data m ⟨some off, out⟩ = .ok vs ∧ vs.length = n ∧
      ∀ c, c < n → ∃ b, bitAt data (off.toNat + c) = some b ∧ vs[c]? = some (.bit b) := by
  obtain ⟨hbc, hn⟩ := digitalInputs_bytes hm
  obtain ⟨w, hw, hb⟩ := prepareRaw_one (oc := oc) (addr := addrPackedProcessInputData)
    (bc := m.inputByteCount) (by rw [hbc]; rfl) (by simp [addrPackedProcessInputData]) h8
    (by simpa [addrPackedProcessInputData] using hlen)
  obtain ⟨-, hdec⟩ := C15_digital_input m n hm [w]
  obtain ⟨vs, hvs, hl, hbits⟩ := hdec w rfl
  refine ⟨vs, ?_, hl, fun c hc => ⟨w.getLsbD c, ?_, hbits c hc⟩⟩
  · unfold moduleInput
    simp only [hw, Res.bind_eq, Res.bind_ok, hvs]
  · rw [show off.toNat + c = 8 * (off.toNat / 8) + c by omega]
    refine bitAt_word data _ w n (by omega) (fun k hk => ?_) c hc
    have := hb k (by omega)
    simpa [addrPackedProcessInputData] using this

/-- C44: a digital output module at bit 0 or, if it has one byte, at bit 8 of a register reads its
channels from the low or the high byte of the output image. -/
theorem C44_decode_output (oc : Bool) (data : List Word) (m : Module) (n : Nat)
    (hm : digitalOutputs m = some n) (o : Word) (inp : Option Word) (h8 : o.toNat % 8 = 0)
    (hn : n ≤ 8 ∨ o.toNat % 16 = 0) (hbase : outputBase ≤ o.toNat)
    (hlen : outBit o / 16 < data.length) :
    ∃ vs, moduleOutput oc data m ⟨inp, some o⟩ = .ok vs ∧ vs.length = n ∧
      ∀ c, c < n → ∃ b, bitAt data (outBit o + c) = some b ∧ vs[c]? = some (.bit b) := by
  have hbc := digitalOutputs_bytes hm
  obtain ⟨hn16, -, hdec, -⟩ := digitalOutputs_spec m n hm
  have ha : addrPackedProcessOutputData.toNat * 16 = outputBase := by decide
  obtain ⟨w, hw, hb⟩ := prepareRaw_one (oc := oc) (addr := addrPackedProcessOutputData) (off := o)
    (bc := m.outputByteCount) (data := data) (by rw [hbc]; split <;> rfl) (by rw [ha]; exact hbase)
    h8 (by rw [ha]; exact hlen)
  rw [ha] at hb
  refine ⟨bitValues n w, ?_, bitValues_length n w, fun c hc =>
    ⟨w.getLsbD c, ?_, bitValues_getElem? n w c hn16 hc⟩⟩
  · unfold moduleOutput
    simp only [hw, Res.bind_eq, Res.bind_ok, hdec]
    rfl
  · unfold outBit
    rw [show o.toNat - outputBase + c = 8 * ((o.toNat - outputBase) / 8) + c by
      unfold outputBase; omega]
    refine bitAt_word data _ w n hn16 (fun k hk => ?_) c hc
    exact hb k (by omega)

/-- C44: in an encoded image, channel `c` of a digital output module
at bit 0 or, if it has one byte, at bit 8 of a register is bit `o + c` of the image, unless another
module overlaps it. -/
theorem C44_encode (infos : List (Module × ModuleOffset)) (vals : List (List ChannelValue))
    (img : List Word) (h : processOutputValues infos vals = .ok img) (i : Nat)
    (hdis : BytesKept infos i) (m : Module) (n : Nat) (hm : digitalOutputs m = some n) (off : ModuleOffset)
    (o : Word) (hi : infos[i]? = some (m, off)) (ho : off.output = some o)
    (hn : n ≤ 8 ∨ o.toNat % 16 = 0) :
    ∃ vs, vals[i]? = some vs ∧ vs.length = n ∧
      ∀ c, c < n → bitAt img (outBit o + c) = some (decide (vs[c]? = some (.bit true))) := by
  obtain ⟨vs, d, h1, h2, h3, h4, h5⟩ := C41_own_bytes infos vals img h i hdis m off o hi ho
  obtain ⟨w, rfl, hbits⟩ := C16_bits m n hm vs d h2
  have hbc := digitalOutputs_bytes hm
  obtain ⟨hn16, -, -, -⟩ := digitalOutputs_spec m n hm
  refine ⟨vs, h1, ((C16_accepts m n hm vs).1.1 ⟨_, h2⟩).1, fun c hc => ?_⟩
  have : outBit o + c = 8 * outByte o + c := by
    unfold outBit outByte
    unfold outputBase at *
    omega
  rw [this, bitAt_word img (outByte o) w n hn16 (fun k hk => h5 k ?_ ?_) c hc]
  · congr 1
    rw [Bool.eq_iff_iff, hbits c (by omega), decide_eq_true_iff]
  · rw [hbc]; split <;> omega
  · intro; omega

/-- `exInfos` has no overlapping modules. -/
theorem exInfos_disjoint : DisjointBytes exInfos := by
  refine disjointBytes_of ?_
  have hown : ∀ (i : Nat) e p, exInfos[i]? = some e → Owns e p →
      (i = 0 ∧ p = 0) ∨ (i = 1 ∧ p = 1) ∨ (i = 3 ∧ (p = 2 ∨ p = 3)) := by
    intro i e p he ⟨o, ho, h1, h2⟩
    match i with
    | 0 => cases he; cases ho; change 0 ≤ p at h1; change p < 0 + 1 at h2; omega
    | 1 => cases he; cases ho; change 1 ≤ p at h1; change p < 1 + 1 at h2; omega
    | 2 => cases he; cases ho
    | 3 => cases he; cases ho; change 2 ≤ p at h1; change p < 2 + 2 at h2; omega
    | i + 4 => simp [exInfos] at he
  intro i j e e' p hi hj h1 h2
  have := hown i e p hi h1
  have := hown j e' p hj h2
  omega

example : moduleOutput true [0xFF09#16] (.dout ⟨.UR20_8DO_P, []⟩) ⟨none, some 0x8008#16⟩
    = .ok (List.replicate 8 (.bit true)) := by decide
example : moduleInput true [0x0500#16] (.di ⟨.UR20_4DI_P, []⟩) ⟨some 0x0008#16, none⟩
    = .ok [.bit true, .bit false, .bit true, .bit false] := by decide

/-- C45, decoding: a module of two or more input bytes in the middle of a register decodes the
bytes from its offset on, as it would if they began at a register. -/
def C45_decode_statement : Prop :=
  ∀ (oc : Bool) (data d : List Word) (m : Module) (off : Word) (out : Option Word),
    2 ≤ m.inputByteCount → off.toNat % 16 = 8 →
    off.toNat / 8 + m.inputByteCount ≤ 2 * data.length →
    d.length = m.inputByteCount / 2 →
    (∀ k, k < m.inputByteCount → byteAt d k = byteAt data (off.toNat / 8 + k)) →
    moduleInput oc data m ⟨some off, out⟩ = m.processInputData d

/-- C45, encoding: all encoded bytes of a module in the middle of a register follow its offset. -/
def C45_encode_statement : Prop :=
  ∀ (infos : List (Module × ModuleOffset)) (vals : List (List ChannelValue)) (img : List Word),
    processOutputValues infos vals = .ok img → DisjointBytes infos →
    ∀ (i : Nat) m off o vs d, infos[i]? = some (m, off) → off.output = some o →
      vals[i]? = some vs → m.processOutputValues vs = .ok d →
      o.toNat % 16 = 8 → 2 ≤ m.outputByteCount →
      ∀ k, k < m.outputByteCount → byteAt img (outByte o + k) = byteAt d k

/-- C45 does not hold for decoding: the last byte of a module at bit 8 is lost; here a
serial frame loses its last data byte. -/
theorem C45_decode_statement_false : ¬ C45_decode_statement := by
  intro h
  have := h true [0x0100#16, 0x0006#16, 0#16, 0#16, 0x00AA#16]
    [0x0601#16, 0#16, 0#16, 0xAA00#16]
    (.com ⟨.EightBytes, []⟩) 8#16 none (by decide) (by decide) (by decide) (by decide) (by
      intro k hk
      have : k < 8 := hk
      have hall : ∀ k : Fin 8, byteAt [0x0601#16, 0#16, 0#16, 0xAA00#16] k.val =
        byteAt [0x0100#16, 0x0006#16, 0#16, 0#16, 0x00AA#16] ((8#16).toNat / 8 + k.val) := by decide
      exact hall ⟨k, this⟩)
  revert this
  decide

/-- C45 does not hold for encoding: of a 16-channel output module at bit 8 only the first eight
channels are written. -/
theorem C45_encode_statement_false : ¬ C45_encode_statement := by
  intro h
  have := h [(.ro ⟨[]⟩, ⟨none, some 0x8000#16⟩), (.do16, ⟨none, some 0x8008#16⟩)]
    [List.replicate 4 (.bit false), List.replicate 16 (.bit true)] [0xFF00#16] (by decide) (by
      refine disjointBytes_of ?_
      intro i j e e' p hi hj ⟨o, ho, h1, h2⟩ ⟨o', ho', h1', h2'⟩
      match i, j with
      | 0, 0 => rfl
      | 0, 1 =>
        cases hi; cases hj; cases ho; cases ho'
        change p < 0 + 1 at h2; change 1 ≤ p at h1'; omega
      | 1, 0 =>
        cases hi; cases hj; cases ho; cases ho'
        change 1 ≤ p at h1; change p < 0 + 1 at h2'; omega
      | 1, 1 => rfl
      | i + 2, _ => simp at hi
      | _, j + 2 => simp at hj)
    1 .do16 ⟨none, some 0x8008#16⟩ 0x8008#16 (List.replicate 16 (.bit true)) [0xFFFF#16] rfl rfl rfl
    (by decide) (by decide) (by decide) 1 (by decide)
  revert this
  decide

/-- C45, what holds: the module gets all bytes from the offset on except the last one, which it
sees as zero. -/
theorem C45_decode_partial (oc : Bool) (data : List Word) (m : Module) (off : Word)
    (out : Option Word) (hbc : 2 ≤ m.inputByteCount) (heven : m.inputByteCount % 2 = 0)
    (h8 : off.toNat % 16 = 8) (hlen : off.toNat / 8 + m.inputByteCount ≤ 2 * data.length) :
    ∃ d, d.length = m.inputByteCount / 2 ∧
      (∀ k, k + 1 < m.inputByteCount → byteAt d k = byteAt data (off.toNat / 8 + k)) ∧
      byteAt d (m.inputByteCount - 1) = some 0#8 ∧
      moduleInput oc data m ⟨some off, out⟩ = m.processInputData d := by
  have ha : addrPackedProcessInputData.toNat * 16 ≤ off.toNat := by simp [addrPackedProcessInputData]
  have hs := rawStart_eq off addrPackedProcessInputData ha
  have hz : addrPackedProcessInputData.toNat = 0 := rfl
  have hw : rawWords m.inputByteCount = m.inputByteCount / 2 := by
    unfold rawWords; rw [if_neg (by omega)]
  cases hp : prepareRawDataToProcess oc off addrPackedProcessInputData m.inputByteCount data with
  | panic => exact absurd hp (prepareRaw_ne_panic _ _ _ _ _ fun _ => ha)
  | err e =>
    exfalso
    rw [prepareRaw_unfold, if_neg (by simp only [Bool.and_eq_true, decide_eq_true_eq]; omega),
      if_neg (by omega), if_neg (by omega), if_pos h8] at hp
    obtain ⟨raw, hr, -⟩ := shiftData_spec
      ((data.drop (rawStart off addrPackedProcessInputData)).take (rawWords m.inputByteCount)) (by
        intro he
        have := congrArg List.length he
        simp only [List.length_take, List.length_drop, List.length_nil] at this
        omega)
    rw [hr] at hp
    cases hp
  | ok raw =>
    obtain ⟨h1, -, ⟨h0, -⟩ | ⟨-, h2, h3⟩⟩ := prepareRaw_ok hp
    · omega
    · refine ⟨raw, by rw [h1, hw], fun k hk => ?_, ?_, ?_⟩
      · rw [h2 k (by omega), hs]
        congr 1
        omega
      · rw [← h3]
        congr 1
        omega
      · unfold moduleInput
        simp only [hp, Res.bind_eq, Res.bind_ok]

/-- C45, what holds for encoding: the first byte is encoded at the offset. -/
theorem C45_encode_partial (infos : List (Module × ModuleOffset))
    (vals : List (List ChannelValue)) (img : List Word)
    (h : processOutputValues infos vals = .ok img) (i : Nat)
    (hdis : BytesKept infos i) (m : Module) (off : ModuleOffset) (o : Word) (hi : infos[i]? = some (m, off))
    (ho : off.output = some o) (hbc : 2 ≤ m.outputByteCount) :
    ∃ vs d, vals[i]? = some vs ∧ m.processOutputValues vs = .ok d ∧
      byteAt img (outByte o) = byteAt d 0 := by
  obtain ⟨vs, d, h1, h2, -, -, h5⟩ := C41_own_bytes infos vals img h i hdis m off o hi ho
  have := h5 0 (by omega) fun _ => rfl
  rw [Nat.add_zero] at this
  exact ⟨vs, d, h1, h2, this⟩

example : moduleInput true [0x0100#16, 0x0006#16, 0#16, 0#16, 0x00AA#16] (.com ⟨.EightBytes, []⟩)
    ⟨some 8#16, none⟩ =
    (Module.com ⟨.EightBytes, []⟩).processInputData [0x0601#16, 0#16, 0#16, 0#16] := by decide

end Ur20
